import Verif.Proofs.Scan
import Verif.Proofs.Segmentation
/-!
# The tokens of an input are its segmentation
-/

namespace Textseg
open Spec

/-! ## Pieces -/

theorem pieces_total (data : List UInt8) : ∃ ps, Pieces data ps := by
  induction h : data.length using Nat.strongRecOn generalizing data with
  | ind n ih =>
    match data with
    | [] => exact ⟨_, .nil⟩
    | b :: t =>
      by_cases hs : StartsWithSeq (b :: t)
      · obtain ⟨bs, rest, h1, h2⟩ := hs
        have hp := h1.length_pos
        obtain ⟨ps, hps⟩ := ih rest.length (by rw [← h, h2, List.length_append]; omega) rest rfl
        exact ⟨.seq bs :: ps, h2 ▸ Pieces.seq bs rest ps h1 hps⟩
      · obtain ⟨ps, hps⟩ := ih t.length (by rw [← h, List.length_cons]; omega) t rfl
        exact ⟨_, .bad b t ps hs hps⟩

theorem pieces_bytes {data : List UInt8} {ps : List Piece} (h : Pieces data ps) : piecesBytes ps = data := by
  induction h with
  | nil => rfl
  | seq bs rest ps h1 h2 ih => simpa [piecesBytes, Piece.bytes] using ih
  | bad b rest ps h1 h2 ih => simpa [piecesBytes, Piece.bytes] using ih

theorem pieces_unique {data : List UInt8} {ps ps' : List Piece} (h : Pieces data ps) (h' : Pieces data ps') : ps = ps' := by
  induction h generalizing ps' with
  | nil =>
    generalize hd : ([] : List UInt8) = data at h'
    cases h' with
    | nil => rfl
    | seq bs rest ps h1 h2 =>
      have := h1.ne_nil
      simp only [List.nil_eq, List.append_eq_nil_iff] at hd
      exact absurd hd.1 this
    | bad => cases hd
  | seq bs rest ps h1 h2 ih =>
    generalize hd : bs ++ rest = data at h'
    cases h' with
    | nil => exact absurd (List.append_eq_nil_iff.mp hd).1 h1.ne_nil
    | seq bs' rest' ps' h1' h2' =>
      obtain ⟨rfl, rfl⟩ := h1.unique h1' hd
      rw [ih h2']
    | bad b rest' ps' h1' h2' => exact absurd ⟨bs, rest, h1, hd.symm⟩ h1'
  | bad b rest ps h1 h2 ih =>
    generalize hd : b :: rest = data at h'
    cases h' with
    | nil => cases hd
    | seq bs' rest' ps' h1' h2' => exact absurd ⟨bs', rest', h1', hd⟩ h1
    | bad b' rest' ps' h1' h2' => cases hd; rw [ih h2']

theorem pieces_seq_inv {bs rest : List UInt8} {ps : List Piece} (hs : IsSeq bs) (h : Pieces (bs ++ rest) ps) :
    ∃ ps', ps = .seq bs :: ps' ∧ Pieces rest ps' := by
  obtain ⟨ps', h'⟩ := pieces_total rest
  exact ⟨ps', pieces_unique h (.seq bs rest ps' hs h'), h'⟩

theorem pieces_bad_inv {b : UInt8} {rest : List UInt8} {ps : List Piece} (hs : ¬ StartsWithSeq (b :: rest))
    (h : Pieces (b :: rest) ps) : ∃ ps', ps = .bad b :: ps' ∧ Pieces rest ps' := by
  obtain ⟨ps', h'⟩ := pieces_total rest
  exact ⟨ps', pieces_unique h (.bad b rest ps' hs h'), h'⟩

/-! ## Clusters of pieces -/

/-- The pieces by which the cluster grows, with reversed context `R`. -/
noncomputable def takeCluster : Text → List Piece → List Piece
  | _, [] => []
  | _, .bad _ :: _ => []
  | R, .seq bs :: ps => if brk R (seqProps bs) then [] else .seq bs :: takeCluster (seqProps bs :: R) ps

theorem takeCluster_prefix (R : Text) (ps : List Piece) : ∃ rest, ps = takeCluster R ps ++ rest := by
  induction ps generalizing R with
  | nil => exact ⟨[], rfl⟩
  | cons p ps ih =>
    cases p with
    | bad b => exact ⟨_, rfl⟩
    | seq bs =>
      rw [takeCluster]
      split
      · exact ⟨_, rfl⟩
      · obtain ⟨rest, hr⟩ := ih (seqProps bs :: R)
        exact ⟨rest, by rw [List.cons_append, ← hr]⟩

theorem grow_take {R : Text} {p : List UInt8} {r : Option Nat} {e : Bool} (h : Grow e R p r) (he : e = true) :
    ∀ ps, Pieces p ps → r = some (piecesBytes (takeCluster R ps)).length := by
  induction h with
  | nil R =>
    intro ps hps
    rw [pieces_unique hps .nil, he]; rfl
  | bad R p hp hs hl =>
    intro ps hps
    match p, hp with
    | b :: t, _ =>
      obtain ⟨ps', rfl, _⟩ := pieces_bad_inv hs hps
      rfl
  | incomplete R b t n h1 h2 =>
    intro ps hps
    obtain ⟨ps', rfl, _⟩ := pieces_bad_inv (not_startsWithSeq_incomplete h1 h2) hps
    rw [he]; rfl
  | split R bs rest h1 hb =>
    intro ps hps
    obtain ⟨ps', rfl, _⟩ := pieces_seq_inv h1 hps
    rw [takeCluster, if_pos hb]; rfl
  | more R bs rest r h1 hb hg ih =>
    intro ps hps
    obtain ⟨ps', rfl, hps'⟩ := pieces_seq_inv h1 hps
    rw [takeCluster, if_neg (by simp [hb]), ih ps' hps']
    simp [piecesBytes, Piece.bytes]

/-- The first cluster of a list of pieces. -/
noncomputable def firstCluster : List Piece → List Piece
  | [] => []
  | .bad b :: _ => [.bad b]
  | .seq bs :: ps => .seq bs :: takeCluster [seqProps bs] ps

theorem firstCluster_prefix (ps : List Piece) : ∃ rest, ps = firstCluster ps ++ rest := by
  match ps with
  | [] => exact ⟨[], rfl⟩
  | .bad b :: ps => exact ⟨ps, rfl⟩
  | .seq bs :: ps =>
    obtain ⟨rest, h⟩ := takeCluster_prefix [seqProps bs] ps
    exact ⟨rest, by rw [firstCluster, List.cons_append, ← h]⟩

theorem firstCluster_ne_nil {ps : List Piece} (h : ps ≠ []) : firstCluster ps ≠ [] := by
  match ps, h with
  | .bad b :: ps, _ => simp [firstCluster]
  | .seq bs :: ps, _ => simp [firstCluster]

theorem scanRes_first {data : List UInt8} {r : Option Nat} (h : ScanRes true data r) (hd : data ≠ []) {ps : List Piece}
    (hps : Pieces data ps) : r = some (piecesBytes (firstCluster ps)).length := by
  cases h with
  | nil => exact absurd rfl hd
  | bad p hp hs hl =>
    match data, hp with
    | b :: t, _ =>
      obtain ⟨ps', rfl, _⟩ := pieces_bad_inv hs hps
      rfl
  | incomplete b t n h1 h2 =>
    obtain ⟨ps', rfl, _⟩ := pieces_bad_inv (not_startsWithSeq_incomplete h1 h2) hps
    rfl
  | seq bs rest r h1 hg =>
    obtain ⟨ps', rfl, hps'⟩ := pieces_seq_inv h1 hps
    rw [grow_take hg rfl ps' hps']
    simp [firstCluster, piecesBytes, Piece.bytes]

theorem pieces_drop {ps1 ps2 : List Piece} : ∀ {data : List UInt8}, Pieces data (ps1 ++ ps2) →
    ∃ rest, data = piecesBytes ps1 ++ rest ∧ Pieces rest ps2 := by
  induction ps1 with
  | nil => intro data h; exact ⟨data, rfl, h⟩
  | cons p ps1 ih =>
    intro data h
    cases h with
    | seq bs rest _ h1 h2 =>
      obtain ⟨r, h3, h4⟩ := ih h2
      exact ⟨r, by rw [h3]; simp [piecesBytes, Piece.bytes], h4⟩
    | bad b rest _ h1 h2 =>
      obtain ⟨r, h3, h4⟩ := ih h2
      exact ⟨r, by rw [h3]; simp [piecesBytes, Piece.bytes], h4⟩

/-- The clusters of a list of pieces. -/
inductive Clusters : List Piece → List (List Piece) → Prop where
  | nil : Clusters [] []
  | cons (ps rest segs) : ps ≠ [] → ps = firstCluster ps ++ rest → Clusters rest segs →
      Clusters ps (firstCluster ps :: segs)

theorem clusters_total (ps : List Piece) : ∃ segs, Clusters ps segs := by
  induction h : ps.length using Nat.strongRecOn generalizing ps with
  | ind n ih =>
    by_cases hp : ps = []
    · exact ⟨[], hp ▸ Clusters.nil⟩
    · obtain ⟨rest, hr⟩ := firstCluster_prefix ps
      have h1 := List.length_pos_iff.mpr (firstCluster_ne_nil hp)
      have h2 := congrArg List.length hr
      rw [List.length_append] at h2
      obtain ⟨segs, hs⟩ := ih rest.length (by omega) rest rfl
      exact ⟨_, .cons ps rest segs hp hr hs⟩

theorem allTokensLoop_eq {ps : List Piece} {segs : List (List Piece)} (h : Clusters ps segs) :
    ∀ (data : List UInt8) (fuel : Nat), Pieces data ps → data.length < fuel →
      allTokensLoop fuel data = .ok (segs.map piecesBytes) := by
  induction h with
  | nil =>
    intro data fuel hps hf
    have := pieces_bytes hps
    match fuel, hf with
    | fuel + 1, _ =>
      rw [← this]; rfl
  | cons ps rest segs hp hr hc ih =>
    intro data fuel hps hf
    have hb := pieces_bytes hps
    have hd : data ≠ [] := by
      intro h
      subst h
      exact hp (pieces_unique hps .nil)
    obtain ⟨r, hres⟩ := ScanRes.total true data
    have hr1 := scanRes_first hres hd hps
    have hscan := scan_eq hres
    have hps' := hps
    rw [hr] at hps'
    obtain ⟨dr, h1, h2⟩ := pieces_drop hps'
    have hlen : (data.length == 0) = false := by simpa using hd
    have hpos := (hres.bounds _ hr1).1
    have hsl : goSliceFrom data (piecesBytes (firstCluster ps)).length = .ok dr := by
      rw [h1]; simp [goSliceFrom]
    have htk : data.take (piecesBytes (firstCluster ps)).length = piecesBytes (firstCluster ps) := by
      conv => lhs; rw [h1]
      simp
    match fuel, hf with
    | fuel + 1, hf =>
      rw [allTokensLoop]
      simp only [hlen, Bool.false_eq_true, if_false, hscan, hr1, resultOf, bind, Except.bind, hsl, htk]
      have hlen2 := congrArg List.length h1
      rw [List.length_append] at hlen2
      rw [ih dr fuel h2 (by omega)]
      rfl

theorem tokens_eq {data : List UInt8} {ps : List Piece} {segs : List (List Piece)} (hps : Pieces data ps)
    (h : Clusters ps segs) : tokens data = .ok (segs.map piecesBytes) :=
  allTokensLoop_eq h data _ hps (by omega)

/-! ## Clusters are the segmentation -/

theorem leadingRun_consistent (ps : List Piece) : CtxOk (leadingRun ps) := by
  induction ps with
  | nil => intro c hc; simp [leadingRun] at hc
  | cons p ps ih =>
    cases p with
    | bad b => intro c hc; simp [leadingRun] at hc
    | seq bs =>
      intro c hc
      rw [leadingRun] at hc
      rcases List.mem_cons.mp hc with rfl | hc
      · exact seqProps_consistent bs
      · exact ih c hc

/-- The reversed context at a position. -/
noncomputable def ctx (before : List Piece) : Text := leadingRun before.reverse

theorem ctx_seq (before : List Piece) (bs : List UInt8) : ctx (before ++ [.seq bs]) = seqProps bs :: ctx before := by
  simp [ctx, leadingRun]

theorem ctx_bad (before : List Piece) (b : UInt8) : ctx (before ++ [.bad b]) = [] := by
  simp [ctx, leadingRun]

theorem pieceBoundary_seq (before : List Piece) (bs : List UInt8) (ps : List Piece) :
    PieceBoundary before (.seq bs :: ps) ↔ brk (ctx before) (seqProps bs) = true := by
  unfold PieceBoundary trailingRun
  rw [leadingRun, show leadingRun before.reverse = ctx before from rfl, boundary_iff]
  constructor
  · rintro (h | h | h)
    · rw [List.reverse_eq_nil_iff] at h
      rw [h]; rfl
    · cases h
    · exact h
  · exact fun h => Or.inr (Or.inr h)

theorem pieceBoundary_bad (before : List Piece) (b : UInt8) (ps : List Piece) :
    PieceBoundary before (.bad b :: ps) := Or.inr (Or.inl rfl)

theorem pieceBoundary_of_ctx_nil {before : List Piece} (h : ctx before = []) (after : List Piece) :
    PieceBoundary before after := by
  left; unfold trailingRun; rw [show leadingRun before.reverse = ctx before from rfl, h]; rfl

/-- Two contexts that agree in their last character and in their facts. -/
def SameCtx (R R' : Text) : Prop := R.head? = R'.head? ∧ flags R = flags R'

theorem SameCtx.brk {R R' : Text} (h : SameCtx R R') (n : CharProps) : brk R n = brk R' n := by
  obtain ⟨h1, h2⟩ := h
  match R, R', h1 with
  | [], [], _ => rfl
  | p :: R, q :: R', h1 =>
    simp only [List.head?_cons, Option.some.injEq] at h1
    subst h1
    rw [Textseg.brk, Textseg.brk, h2]

theorem SameCtx.cons {R R' : Text} (h : SameCtx R R') (n : CharProps) : SameCtx (n :: R) (n :: R') :=
  ⟨rfl, by rw [flags, flags, h.2]⟩

/-- No boundary inside a cluster, one after it. -/
theorem takeCluster_spec (ps : List Piece) : ∀ (R : Text) (before : List Piece) (rest : List Piece),
    SameCtx (ctx before) R → ps = takeCluster R ps ++ rest →
    (∀ c1 c2, takeCluster R ps = c1 ++ c2 → c2 ≠ [] → ¬ PieceBoundary (before ++ c1) (c2 ++ rest)) ∧
    (rest ≠ [] → PieceBoundary (before ++ takeCluster R ps) rest) := by
  induction ps with
  | nil =>
    intro R before rest hs hr
    simp only [takeCluster, List.nil_append] at hr
    refine ⟨?_, fun h => absurd hr.symm h⟩
    intro c1 c2 h h2
    simp only [takeCluster, List.nil_eq, List.append_eq_nil_iff] at h
    exact absurd h.2 h2
  | cons p ps ih =>
    intro R before rest hs hr
    cases p with
    | bad b =>
      simp only [takeCluster, List.nil_append] at hr ⊢
      refine ⟨?_, fun _ => by rw [← hr]; exact pieceBoundary_bad _ _ _⟩
      intro c1 c2 h h2
      simp only [List.nil_eq, List.append_eq_nil_iff] at h
      exact absurd h.2 h2
    | seq bs =>
      cases hb : brk R (seqProps bs)
      · have htc : takeCluster R (.seq bs :: ps) = .seq bs :: takeCluster (seqProps bs :: R) ps := by
          rw [takeCluster, if_neg (by simp [hb])]
        rw [htc] at hr ⊢
        rw [List.cons_append, List.cons.injEq] at hr
        have hs' : SameCtx (ctx (before ++ [.seq bs])) (seqProps bs :: R) := by rw [ctx_seq]; exact hs.cons _
        obtain ⟨i1, i2⟩ := ih _ _ rest hs' hr.2
        rw [List.append_assoc, List.singleton_append] at i2
        refine ⟨?_, i2⟩
        intro c1 c2 h h2
        cases c1 with
        | nil =>
          simp only [List.nil_append] at h
          rw [← h, List.append_nil, List.cons_append, pieceBoundary_seq, hs.brk, hb]
          simp
        | cons x c1 =>
          rw [List.cons_append, List.cons.injEq] at h
          rw [← h.1]
          have := i1 c1 c2 h.2 h2
          rwa [List.append_assoc, List.singleton_append] at this
      · have htc : takeCluster R (.seq bs :: ps) = [] := by
          rw [takeCluster, if_pos hb]
        rw [htc] at hr ⊢
        simp only [List.nil_append] at hr
        refine ⟨?_, ?_⟩
        · intro c1 c2 h h2
          simp only [List.nil_eq, List.append_eq_nil_iff] at h
          exact absurd h.2 h2
        · intro _
          rw [← hr, List.append_nil, pieceBoundary_seq, hs.brk, hb]

theorem ctx_ok (before : List Piece) : CtxOk (ctx before) := leadingRun_consistent _

theorem firstCluster_spec {ps : List Piece} (hp : ps ≠ []) (before rest : List Piece)
    (hb : before = [] ∨ PieceBoundary before ps) (hr : ps = firstCluster ps ++ rest) :
    (∀ c1 c2, firstCluster ps = c1 ++ c2 → c1 ≠ [] → c2 ≠ [] → ¬ PieceBoundary (before ++ c1) (c2 ++ rest)) ∧
    (rest ≠ [] → PieceBoundary (before ++ firstCluster ps) rest) := by
  match ps, hp with
  | .bad b :: ps, _ =>
    simp only [firstCluster] at hr ⊢
    refine ⟨?_, fun _ => pieceBoundary_of_ctx_nil (ctx_bad before b) _⟩
    intro c1 c2 h h1 h2
    cases c1 with
    | nil => exact absurd rfl h1
    | cons x c1 =>
      simp only [List.cons_append, List.cons.injEq, List.nil_eq, List.append_eq_nil_iff] at h
      exact absurd h.2.2 h2
  | .seq bs :: ps, _ =>
    simp only [firstCluster] at hr ⊢
    rw [List.cons_append, List.cons.injEq] at hr
    have hbrk : brk (ctx before) (seqProps bs) = true := by
      rcases hb with rfl | hb
      · rfl
      · exact (pieceBoundary_seq before bs ps).mp hb
    have hs : SameCtx (ctx (before ++ [.seq bs])) [seqProps bs] := by
      rw [ctx_seq]
      exact ⟨rfl, flags_restart (ctx_ok before) (seqProps_consistent bs) hbrk⟩
    obtain ⟨i1, i2⟩ := takeCluster_spec ps _ _ rest hs hr.2
    rw [List.append_assoc, List.singleton_append] at i2
    refine ⟨?_, i2⟩
    intro c1 c2 h h1 h2
    cases c1 with
    | nil => exact absurd rfl h1
    | cons x c1 =>
      rw [List.cons_append, List.cons.injEq] at h
      rw [← h.1]
      have := i1 c1 c2 h.2 h2
      rwa [List.append_assoc, List.singleton_append] at this

/-- The clusters after a boundary are the segmentation of the rest. -/
theorem clusters_segmentation' {ps : List Piece} {segs : List (List Piece)} (h : Clusters ps segs) :
    ∀ before : List Piece, (before = [] ∨ ps = [] ∨ PieceBoundary before ps) →
      IsSegmentation (fun b a => PieceBoundary (before ++ b) a) ps segs := by
  induction h with
  | nil => intro before _; exact isSegmentation_nil _
  | cons ps rest segs hp hr hc ih =>
    intro before hb
    have hb' : before = [] ∨ PieceBoundary before ps := by
      rcases hb with h | h | h
      · exact Or.inl h
      · exact absurd h hp
      · exact Or.inr h
    obtain ⟨s1, s2⟩ := firstCluster_spec hp before rest hb' hr
    have := isSegmentation_cons (B := fun b a => PieceBoundary (before ++ b) a) (firstCluster_ne_nil hp) s1 s2
      (segs := segs) ?_
    · rw [← hr] at this
      exact this
    · have := ih (before ++ firstCluster ps) ?_
      · simpa only [List.append_assoc] using this
      · by_cases h : rest = []
        · exact Or.inr (Or.inl h)
        · exact Or.inr (Or.inr (s2 h))

theorem clusters_segmentation {ps : List Piece} {segs : List (List Piece)} (h : Clusters ps segs) :
    IsSegmentation PieceBoundary ps segs := clusters_segmentation' h [] (Or.inl rfl)

/-! ## Texts -/

theorem isSeq_encode (c : Char) : IsSeq (String.utf8EncodeChar c) := by
  have hc := isValidChar_lt (char_valid c)
  have key : ∀ n, n < 256 → (UInt8.ofNat n).toNat = n := fun n h => by simp [Nat.mod_eq_of_lt h]
  have cont : ∀ n, n < 64 → IsCont (UInt8.ofNat (n + 128)) := by
    intro n h
    constructor
    · show 128 ≤ (UInt8.ofNat (n + 128)).toNat
      rw [key _ (by omega)]; omega
    · show (UInt8.ofNat (n + 128)).toNat ≤ 191
      rw [key _ (by omega)]; omega
  simp only [String.utf8EncodeChar]
  split
  · refine .one _ ?_
    show (UInt8.ofNat _).toNat ≤ 127
    rw [key _ (by omega)]; omega
  · split
    · refine .two _ _ ?_ ?_ (cont _ (by omega))
      · show 192 ≤ (UInt8.ofNat _).toNat
        rw [key _ (by omega)]; omega
      · show (UInt8.ofNat _).toNat ≤ 223
        rw [key _ (by omega)]; omega
    · split
      · refine .three _ _ _ ?_ ?_ (cont _ (by omega)) (cont _ (by omega))
        · show 224 ≤ (UInt8.ofNat _).toNat
          rw [key _ (by omega)]; omega
        · show (UInt8.ofNat _).toNat ≤ 239
          rw [key _ (by omega)]; omega
      · refine .four _ _ _ _ ?_ ?_ (cont _ (by omega)) (cont _ (by omega)) (cont _ (by omega))
        · show 240 ≤ (UInt8.ofNat _).toNat
          rw [key _ (by omega)]; omega
        · show (UInt8.ofNat _).toNat ≤ 247
          rw [key _ (by omega)]; omega

/-- The piece of a character. -/
def charPiece (c : Char) : Piece := .seq (String.utf8EncodeChar c)

theorem charPiece_injective (c d : Char) (h : charPiece c = charPiece d) : c = d := by
  simp only [charPiece, Piece.seq.injEq] at h
  exact encode_injective h

theorem pieces_utf8 (cs : List Char) : Pieces (utf8 cs) (cs.map charPiece) := by
  induction cs with
  | nil => exact .nil
  | cons c cs ih =>
    rw [utf8, List.flatMap_cons]
    exact .seq _ _ _ (isSeq_encode c) ih

theorem piecesBytes_map (cs : List Char) : piecesBytes (cs.map charPiece) = utf8 cs := by
  simp [piecesBytes, utf8, List.flatMap_map, charPiece, Piece.bytes]

theorem leadingRun_map (cs : List Char) : leadingRun (cs.map charPiece) = cs.map fun c => ucd c.val.toNat := by
  induction cs with
  | nil => rfl
  | cons c cs ih => rw [List.map_cons, charPiece, leadingRun, seqProps_encode, List.map_cons, ih]

theorem trailingRun_map (cs : List Char) : trailingRun (cs.map charPiece) = cs.map fun c => ucd c.val.toNat := by
  rw [trailingRun, ← List.map_reverse, leadingRun_map, List.map_reverse, List.reverse_reverse]

theorem pieceBoundary_map (before after : List Char) (hb : before ≠ []) (ha : after ≠ []) :
    PieceBoundary (before.map charPiece) (after.map charPiece) ↔ CharBoundary before after := by
  unfold PieceBoundary CharBoundary
  rw [leadingRun_map, trailingRun_map]
  simp [hb, ha]

end Textseg
