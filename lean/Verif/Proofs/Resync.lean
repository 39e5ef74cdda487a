import Verif.Proofs.Editing
/-!
# Where the past no longer matters
-/

namespace Textseg
open Spec

/-- After such a character the rules know nothing of what came before it. -/
def Forgets (p : CharProps) : Prop := p.gcb ≠ .Extend ∧ p.gcb ≠ .ZWJ ∧ p.gcb ≠ .RegionalIndicator

theorem forgets_next {p : CharProps} (cp : p.Consistent) (h : Forgets p) (f g : Flags) : f.next p = g.next p := by
  obtain ⟨h1, h2, h3⟩ := h
  have hj : joiner p = false := by
    cases hj : joiner p
    · rfl
    · rcases cp.joiner ((joiner_iff p).mp hj) with h | h
      · exact absurd h h1
      · exact absurd h h2
  have hl : p.incb ≠ .Linker := by
    intro h
    rcases cp.joiner (Or.inr h) with h | h
    · exact absurd h h1
    · exact absurd h h2
  rw [← beq_eq_false_iff_ne] at h1 h2 h3 hl
  simp only [Flags.next, h1, h2, h3, hj, hl, Bool.false_and]

theorem flags_forget {p : CharProps} (cp : p.Consistent) (h : Forgets p) (R : Text) (xs : Text) :
    flags (xs ++ p :: R) = flags (xs ++ [p]) := by
  induction xs with
  | nil => exact forgets_next cp h _ _
  | cons x xs ih => rw [List.cons_append, List.cons_append, flags, flags, ih]

theorem brk_forget {p : CharProps} (cp : p.Consistent) (h : Forgets p) (R : Text) (xs : Text) (n : CharProps) :
    brk (xs ++ p :: R) n = brk (xs ++ [p]) n := by
  cases xs with
  | nil => simp only [List.nil_append, brk, flags]; rw [forgets_next cp h (flags R) Flags.init]
  | cons x xs =>
    have := flags_forget cp h R (x :: xs)
    simp only [List.cons_append] at this
    simp only [List.cons_append, brk]
    rw [this]

theorem leadingRun_append_seq (xs : List Piece) (c : Char) (ys : List Piece) :
    (leadingRun (xs ++ charPiece c :: ys) = leadingRun (xs ++ [charPiece c])) ∨
    (leadingRun (xs ++ charPiece c :: ys) = leadingRun xs ++ ucd c.val.toNat :: leadingRun ys ∧
      leadingRun (xs ++ [charPiece c]) = leadingRun xs ++ [ucd c.val.toNat]) := by
  induction xs with
  | nil =>
    right
    simp [leadingRun, charPiece, seqProps_encode]
  | cons p xs ih =>
    cases p with
    | bad b => left; simp [leadingRun]
    | seq bs =>
      simp only [List.cons_append, leadingRun]
      rcases ih with h | ⟨h1, h2⟩
      · left; rw [h]
      · right; rw [h1, h2]; exact ⟨rfl, rfl⟩

theorem pieceBoundary_forget {c : Char} (h : Forgets (ucd c.val.toNat)) (pa v1 v2 : List Piece) :
    PieceBoundary (pa ++ charPiece c :: v1) v2 ↔ PieceBoundary (charPiece c :: v1) v2 := by
  cases v2 with
  | nil => exact ⟨fun _ => Or.inr (Or.inl rfl), fun _ => Or.inr (Or.inl rfl)⟩
  | cons q v2 =>
    cases q with
    | bad b => exact ⟨fun _ => pieceBoundary_bad _ _ _, fun _ => pieceBoundary_bad _ _ _⟩
    | seq bs =>
      rw [pieceBoundary_seq, pieceBoundary_seq]
      unfold ctx
      rw [List.reverse_append, List.reverse_cons, List.append_assoc, List.singleton_append]
      rcases leadingRun_append_seq v1.reverse c pa.reverse with e | ⟨e1, e2⟩
      · rw [e]
      · rw [e1, e2, brk_forget (ucd_consistent _) h]

/-- The pieces around a character. -/
theorem pieces_around (pre : List UInt8) (c : Char) (post : List UInt8) :
    ∃ pa pb, Pieces pre pa ∧ Pieces post pb ∧ Pieces (String.utf8EncodeChar c ++ post) (charPiece c :: pb) ∧
      Pieces (pre ++ (String.utf8EncodeChar c ++ post)) (pa ++ charPiece c :: pb) := by
  obtain ⟨pa, hpa⟩ := pieces_total pre
  obtain ⟨pb, hpb⟩ := pieces_total post
  have h1 : Pieces (String.utf8EncodeChar c ++ post) (charPiece c :: pb) := .seq _ _ _ (isSeq_encode c) hpb
  obtain ⟨x, t, e, hx⟩ : ∃ x t, String.utf8EncodeChar c = x :: t ∧ ¬ IsCont x := by
    have h := isSeq_encode c
    generalize String.utf8EncodeChar c = bs at h
    cases h with
    | one b h =>
      refine ⟨b, [], rfl, fun hc => ?_⟩
      have h1 : 0x80 ≤ b.toNat := hc.1
      have h2 : b.toNat ≤ 0x7F := h
      omega
    | two b c h _ _ =>
      refine ⟨b, _, rfl, fun hc => ?_⟩
      have h1 : b.toNat ≤ 0xBF := hc.2
      have h2 : 0xC0 ≤ b.toNat := h
      omega
    | three b c d h _ _ =>
      refine ⟨b, _, rfl, fun hc => ?_⟩
      have h1 : b.toNat ≤ 0xBF := hc.2
      have h2 : 0xE0 ≤ b.toNat := h
      omega
    | four b c d e h _ _ =>
      refine ⟨b, _, rfl, fun hc => ?_⟩
      have h1 : b.toNat ≤ 0xBF := hc.2
      have h2 : 0xF0 ≤ b.toNat := h
      omega
  refine ⟨pa, pb, hpa, hpb, h1, ?_⟩
  rw [e, List.cons_append] at h1 ⊢
  exact pieces_join hpa h1 hx

theorem cutAt_end {data : List UInt8} {toks : List (List UInt8)} (ht : tokens data = .ok toks) : CutAt toks data.length :=
  ⟨toks.length, by rw [List.take_length, tokens_flatten ht]⟩

/-- A boundary after the character, and the same without what comes before it. -/
theorem cut_forget {pre post : List UInt8} {c : Char} (h : Forgets (ucd c.val.toNat)) {toks toks' : List (List UInt8)}
    (ht : tokens (pre ++ (String.utf8EncodeChar c ++ post)) = .ok toks) (ht' : tokens (String.utf8EncodeChar c ++ post) = .ok toks')
    {k : Nat} (hk : (String.utf8EncodeChar c).length ≤ k) : CutAt toks (pre.length + k) ↔ CutAt toks' k := by
  obtain ⟨pa, pb, h1, h2, h3, h4⟩ := pieces_around pre c post
  have hc0 : 0 < (String.utf8EncodeChar c).length := List.length_pos_iff.mpr (isSeq_encode c).ne_nil
  have hpre : (piecesBytes pa).length = pre.length := by rw [pieces_bytes h1]
  have key : ∀ v1 v2, pb = v1 ++ v2 → v2 ≠ [] →
      (CutAt toks (pre.length + (piecesBytes (charPiece c :: v1)).length) ↔ CutAt toks' (piecesBytes (charPiece c :: v1)).length) := by
    intro v1 v2 e hv
    rw [e, ← List.cons_append] at h3
    rw [e, ← List.cons_append, ← List.append_assoc pa] at h4
    have a := cutAt_pieces h4 ht (by simp) hv
    have b := cutAt_pieces h3 ht' (by simp) hv
    rw [piecesBytes_append, List.length_append, hpre] at a
    rw [a, b, pieceBoundary_forget h]
  have hend : ∀ v1, pb = v1 → CutAt toks (pre.length + (piecesBytes (charPiece c :: v1)).length) ∧
      CutAt toks' (piecesBytes (charPiece c :: v1)).length := by
    rintro v1 rfl
    rw [pieces_bytes h3]
    have := cutAt_end ht
    rw [List.length_append] at this
    exact ⟨this, cutAt_end ht'⟩
  constructor
  · intro hcut
    obtain ⟨before, after, e1, e2⟩ := cutAt_only_pieces h4 ht hcut
    rcases List.append_eq_append_iff.mp e1 with ⟨x, g1, g2⟩ | ⟨x, g1, g2⟩
    · cases x with
      | nil =>
        rw [g1, List.append_nil, hpre] at e2
        omega
      | cons y x =>
        rw [List.cons_append, List.cons.injEq] at g2
        obtain ⟨rfl, g3⟩ := g2
        rw [g1, piecesBytes_append, List.length_append, hpre] at e2
        have hk' : k = (piecesBytes (charPiece c :: x)).length := by omega
        rw [hk']
        by_cases hv : after = []
        · subst hv
          exact (hend x (by rw [g3, List.append_nil])).2
        · rw [hk'] at hcut
          exact (key x after g3 hv).mp hcut
    · rw [g1, piecesBytes_append, List.length_append] at hpre
      omega
  · intro hcut
    obtain ⟨before, after, e1, e2⟩ := cutAt_only_pieces h3 ht' hcut
    cases before with
    | nil =>
      simp only [piecesBytes, List.flatMap_nil, List.length_nil] at e2
      omega
    | cons y x =>
      rw [List.cons_append, List.cons.injEq] at e1
      obtain ⟨rfl, g3⟩ := e1
      rw [e2]
      by_cases hv : after = []
      · subst hv
        exact (hend x (by rw [g3, List.append_nil])).1
      · rw [e2] at hcut
        exact (key x after g3 hv).mpr hcut

theorem token_ne_nil {data : List UInt8} {toks : List (List UInt8)} (ht : tokens data = .ok toks) : ∀ t ∈ toks, t ≠ [] := by
  obtain ⟨ps, hps⟩ := pieces_total data
  obtain ⟨segs, hs, rfl⟩ := clusters_of_tokens hps ht
  intro t hm
  obtain ⟨s, hs', rfl⟩ := List.mem_map.mp hm
  have hseg := clusters_segmentation hs
  have hne := hseg.nonempty s hs'
  intro he
  have : 0 < (piecesBytes s).length := piecesBytes_length_pos (fun p hp => pieces_ne_nil hps p (by
    rw [← hseg.concat]; exact List.mem_flatten.mpr ⟨s, hs', hp⟩)) hne
  rw [he] at this
  simp at this

/-- From the second token on, the tokens are those of the whole. -/
theorem suffix_forget {pre post : List UInt8} {c : Char} (h : Forgets (ucd c.val.toNat)) {toks rest : List (List UInt8)}
    {t : List UInt8} (ht : tokens (pre ++ (String.utf8EncodeChar c ++ post)) = .ok toks)
    (ht' : tokens (String.utf8EncodeChar c ++ post) = .ok (t :: rest)) : rest <:+ toks := by
  have hc := (tokens_split_at ht' 1).2
  rw [List.drop_succ_cons, List.drop_zero] at hc
  have hfl := tokens_flatten ht'
  rw [List.flatten_cons] at hfl
  have hcut : CutAt (t :: rest) t.length := ⟨1, by simp⟩
  -- the first token contains the character
  have hlen : (String.utf8EncodeChar c).length ≤ t.length := by
    obtain ⟨pa, pb, h1, h2, h3, h4⟩ := pieces_around pre c post
    obtain ⟨before, after, e1, e2⟩ := cutAt_only_pieces h3 ht' hcut
    cases before with
    | nil =>
      have := List.length_pos_iff.mpr (token_ne_nil ht' t (by simp))
      simp only [piecesBytes, List.flatMap_nil, List.length_nil] at e2
      omega
    | cons y x =>
      rw [List.cons_append, List.cons.injEq] at e1
      rw [← e1.1] at e2
      rw [e2]
      simp [piecesBytes, charPiece, Piece.bytes]
  have := (cut_forget h ht ht' hlen).mpr hcut
  rw [← hfl, ← List.append_assoc] at ht
  rw [← List.length_append] at this
  obtain ⟨ta, tb, h1, h2, h3⟩ := tokens_cut ht this
  rw [hc] at h2
  cases h2
  exact ⟨ta, h3.symm⟩

end Textseg
