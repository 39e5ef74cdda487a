import Verif.Props.Rules
import Verif.Proofs.Editing
import Verif.Proofs.Count
/-!
# Joining texts: appending, ASCII characters, lines

`tokens data = .ok toks`: calling the split function again and again on the whole of `data` gives the tokens `toks`.
-/

namespace Textseg
open Spec

theorem lookupRange_mem {α : Type} {c : Nat} {v : α} {rs : List (Nat × Nat × α)} (h : lookupRange c rs = some v) :
    ∃ lo hi, (lo, hi, v) ∈ rs ∧ lo ≤ c ∧ c ≤ hi := by
  induction rs with
  | nil => cases h
  | cons r rs ih =>
    obtain ⟨lo, hi, w⟩ := r
    rw [lookupRange] at h
    split at h
    · rename_i hc
      cases h
      exact ⟨lo, hi, List.mem_cons_self, hc⟩
    · obtain ⟨lo', hi', h1, h2⟩ := ih h
      exact ⟨lo', hi', List.mem_cons_of_mem _ h1, h2⟩

theorem cr_ranges : (graphemeBreakProperty.filter fun r => r.2.2 == .CR) = [(0x0D, 0x0D, .CR)] := by decide +kernel
theorem lf_ranges : (graphemeBreakProperty.filter fun r => r.2.2 == .LF) = [(0x0A, 0x0A, .LF)] := by decide +kernel

theorem gcb_range {n : Nat} {g : GCB} (hg : g ≠ .Other) (h : (ucd n).gcb = g) :
    ∃ lo hi, (lo, hi, g) ∈ graphemeBreakProperty.filter (fun r => r.2.2 == g) ∧ lo ≤ n ∧ n ≤ hi := by
  cases hl : lookupRange n graphemeBreakProperty with
  | none =>
    rw [ucd, hl] at h
    exact absurd h.symm hg
  | some v =>
    have hv : v = g := by rw [ucd, hl] at h; exact h
    subst hv
    obtain ⟨lo, hi, h1, h2⟩ := lookupRange_mem hl
    exact ⟨lo, hi, List.mem_filter.mpr ⟨h1, beq_self_eq_true _⟩, h2⟩

theorem ucd_cr {n : Nat} (h : (ucd n).gcb = .CR) : n = 0x0D := by
  obtain ⟨lo, hi, h1, h2, h3⟩ := gcb_range (by simp) h
  rw [cr_ranges, List.mem_singleton] at h1
  cases h1
  omega

/-- Only the byte 0x0D is a CR. -/
theorem seqProps_cr {bs : List UInt8} (h : (seqProps bs).gcb = .CR) : bs = [0x0D] := by
  by_cases hc : ∃ c : Char, String.utf8EncodeChar c = bs
  · obtain ⟨c, rfl⟩ := hc
    rw [seqProps_encode] at h
    have h1 := ucd_cr h
    have : c = '\r' := Char.ext (UInt32.toNat_inj.mp h1)
    rw [this]; decide
  · rw [seqProps_none fun c hc' => hc ⟨c, hc'⟩] at h
    cases h

theorem not_cont_of_ascii {b : UInt8} (hb : b < 0x80) : ¬ IsCont b := by
  intro h
  have h1 : 0x80 ≤ b.toNat := h.1
  have h2 : b.toNat < 0x80 := hb
  omega

theorem encode_head_not_cont (c : Char) : ∃ x t, String.utf8EncodeChar c = x :: t ∧ ¬ IsCont x := by
  have h := isSeq_encode c
  generalize String.utf8EncodeChar c = bs at h
  cases h with
  | one b h =>
    refine ⟨b, [], rfl, fun hc => ?_⟩
    have h1 : 0x80 ≤ b.toNat := hc.1
    have h2 : b.toNat ≤ 0x7F := h
    omega
  | two b c h _ _ =>
    refine ⟨b, _, rfl, fun hc => ?_⟩
    have h1 : b.toNat ≤ 0xBF := hc.2
    have h2 : 0xC0 ≤ b.toNat := h
    omega
  | three b c d h _ _ =>
    refine ⟨b, _, rfl, fun hc => ?_⟩
    have h1 : b.toNat ≤ 0xBF := hc.2
    have h2 : 0xE0 ≤ b.toNat := h
    omega
  | four b c d e h _ _ =>
    refine ⟨b, _, rfl, fun hc => ?_⟩
    have h1 : b.toNat ≤ 0xBF := hc.2
    have h2 : 0xF0 ≤ b.toNat := h
    omega

/-- If bytes end in the encoding of a character, that character is their last piece. -/
theorem pieces_ends {pre : List UInt8} {pa : List Piece} (h : Pieces pre pa) {c : Char}
    (hc : String.utf8EncodeChar c <:+ pre) : ∃ pa', pa = pa' ++ [charPiece c] := by
  obtain ⟨u, hu⟩ := hc
  obtain ⟨x, t, hx, hn⟩ := encode_head_not_cont c
  obtain ⟨p1, p2, e, _, h2⟩ := pieces_resync h u x t (by rw [← hx, hu]) hn
  have h3 : Pieces (x :: t) [charPiece c] := by
    rw [← hx]
    have := Pieces.seq _ _ _ (isSeq_encode c) .nil
    rwa [List.append_nil] at this
  exact ⟨p1, by rw [e, pieces_unique h2 h3]⟩

theorem ascii_props' (b : UInt8) (hb : b < 0x80) :
    seqProps [b] = if b = 0x0D then ⟨.CR, false, .None⟩ else if b = 0x0A then ⟨.LF, false, .None⟩
      else if b < 0x20 ∨ b = 0x7F then ⟨.Control, false, .None⟩ else CharProps.none := by
  have hb' : b.toNat < 128 := hb
  rw [seqProps_one (show b ≤ 0x7F from (by show b.toNat ≤ 127; omega))]
  have hne : ∀ k : UInt8, (b = k) ↔ (b.toNat = k.toNat) := fun k => UInt8.toNat_inj.symm
  simp only [hne]
  exact ucd_ascii hb'

/-- The decision before an ASCII character. -/
theorem breakB_ascii (f : Flags) (p : CharProps) (b : UInt8) (hb : b < 0x80) :
    breakB f p (seqProps [b]) = true ↔ ¬ (b = 0x0A ∧ p.gcb = .CR) ∧ ¬ (0x20 ≤ b ∧ b ≠ 0x7F ∧ p.gcb = .Prepend) := by
  rw [ascii_props' b hb]
  have hb' : b.toNat < 128 := hb
  have hle : (0x20 ≤ b) ↔ ¬ b < 0x20 := by
    show (32 ≤ b.toNat) ↔ ¬ (b.toNat < 32)
    omega
  by_cases h1 : b = 0x0D
  · subst h1
    rw [if_pos rfl]
    have : ¬ (0x20 : UInt8) ≤ 0x0D := by decide
    simp [breakB, isCtl]
  · rw [if_neg h1]
    by_cases h2 : b = 0x0A
    · subst h2
      rw [if_pos rfl]
      rcases p with ⟨g, x, i⟩
      cases g <;> simp [breakB, isCtl]
    · rw [if_neg h2]
      by_cases h3 : b < 0x20 ∨ b = 0x7F
      · rw [if_pos h3]
        have : ¬ (0x20 ≤ b ∧ b ≠ 0x7F ∧ p.gcb = .Prepend) := by
          rintro ⟨g1, g2, _⟩
          rcases h3 with h3 | h3
          · exact hle.mp g1 h3
          · exact g2 h3
        simp [breakB, isCtl, h2, this]
      · rw [if_neg h3]
        have h4 : 0x20 ≤ b := hle.mpr fun h => h3 (Or.inl h)
        have h5 : b ≠ 0x7F := fun h => h3 (Or.inr h)
        rcases p with ⟨g, x, i⟩
        rcases f with ⟨f1, f2, f3, f4, f5⟩
        cases g <;> simp [breakB, isCtl, CharProps.none, h2, h4, h5]

end Textseg

namespace Textseg.Props
open Textseg Spec

/-! ## C48: appending -/

/-- C48: appending anything to a text keeps all its tokens except possibly the last one. -/
theorem C48_appending_keeps_tokens (cs : List Char) (more : List UInt8) (toks toks' : List (List UInt8))
    (ht : tokens (utf8 cs) = .ok toks) (ht' : tokens (utf8 cs ++ more) = .ok toks') : toks.dropLast <+: toks' := by
  obtain ⟨pb, hpb⟩ := pieces_total more
  exact append_tokens (pieces_utf8 cs) (pieces_text_append cs hpb) ht ht'

/-- C48 for arbitrary bytes (valid or not), if the appended bytes do not begin with a continuation byte. -/
theorem C48_appending_to_bytes (data more : List UInt8) (h : ∀ x, more.head? = some x → ¬ IsCont x)
    (toks toks' : List (List UInt8)) (ht : tokens data = .ok toks) (ht' : tokens (data ++ more) = .ok toks') :
    toks.dropLast <+: toks' := by
  obtain ⟨pa, hpa⟩ := pieces_total data
  cases more with
  | nil =>
    rw [List.append_nil, ht] at ht'
    cases ht'
    exact List.dropLast_prefix _
  | cons x more =>
    obtain ⟨pb, hpb⟩ := pieces_total (x :: more)
    exact append_tokens hpa (pieces_join hpa hpb (h x rfl)) ht ht'

/-- "a", "e" followed by ACUTE ACCENT: the last token changes. A stray continuation byte can change more: see the
hypothesis of the second theorem. -/
example : tokens (utf8 ['a', 'e']) = .ok [[0x61], [0x65]] ∧
    tokens (utf8 ['a', 'e'] ++ [0xCC, 0x81]) = .ok [[0x61], [0x65, 0xCC, 0x81]] ∧
    tokens [0xF0, 0x9F, 0x87] = .ok [[0xF0], [0x9F], [0x87]] ∧
    tokens ([0xF0, 0x9F, 0x87] ++ [0xA6]) = .ok [[0xF0, 0x9F, 0x87, 0xA6]] := by decide +kernel

/-! ## C49: ASCII characters and lines in arbitrary bytes -/

/-- C49: whatever the bytes around it are, an ASCII character begins a token, with exactly two exceptions: LF after CR, and
a character that is not a control after a character with Grapheme_Cluster_Break = Prepend. -/
theorem C49_ascii_begins_token (pre post : List UInt8) (b : UInt8) (hb : b < 0x80) (hpre : pre ≠ [])
    (toks : List (List UInt8)) (ht : tokens (pre ++ b :: post) = .ok toks) :
    CutAt toks pre.length ↔ ¬ (b = 0x0A ∧ pre.getLast? = some 0x0D) ∧
      ¬ (0x20 ≤ b ∧ b ≠ 0x7F ∧ ∃ c : Char, gcbOf c = .Prepend ∧ String.utf8EncodeChar c <:+ pre) := by
  obtain ⟨ps, hps⟩ := pieces_total (pre ++ b :: post)
  obtain ⟨pa, pb, rfl, hpa, hpb⟩ := pieces_resync hps pre b post rfl (not_cont_of_ascii hb)
  have hb' : b.toNat < 128 := hb
  obtain ⟨pb', rfl, _⟩ := pieces_seq_inv (bs := [b]) (rest := post) (.one b (by show b.toNat ≤ 127; omega)) hpb
  have hpane : pa ≠ [] := by
    rintro rfl
    exact hpre (pieces_bytes hpa).symm
  have hcut := cutAt_pieces hps ht hpane (by simp)
  rw [pieces_bytes hpa] at hcut
  rw [hcut]
  obtain ⟨pa', last, rfl⟩ : ∃ pa' last, pa = pa' ++ [last] :=
    ⟨pa.dropLast, pa.getLast hpane, (List.dropLast_concat_getLast hpane).symm⟩
  -- what the exceptions say about the last piece
  have hcr : pre.getLast? = some 0x0D ↔ last = .seq [0x0D] := by
    constructor
    · intro h
      obtain ⟨u, hu⟩ : ∃ u, pre = u ++ [0x0D] := by
        obtain ⟨u, hu⟩ := List.getLast?_eq_some_iff.mp h
        exact ⟨u, hu⟩
      obtain ⟨q, hq⟩ := pieces_ends (c := '\r') hpa ⟨u, by rw [hu]; rfl⟩
      have := (List.append_inj' hq rfl).2
      simp only [List.cons.injEq, and_true] at this
      rw [this]; decide
    · intro h
      have := pieces_bytes hpa
      rw [h, piecesBytes_append] at this
      rw [← this]
      simp [piecesBytes, Piece.bytes]
  have hpp : (∃ c : Char, gcbOf c = .Prepend ∧ String.utf8EncodeChar c <:+ pre) ↔
      ∃ c : Char, gcbOf c = .Prepend ∧ last = charPiece c := by
    constructor
    · rintro ⟨c, h1, h2⟩
      obtain ⟨q, hq⟩ := pieces_ends hpa h2
      have := (List.append_inj' hq rfl).2
      simp only [List.cons.injEq, and_true] at this
      exact ⟨c, h1, this⟩
    · rintro ⟨c, h1, h2⟩
      refine ⟨c, h1, piecesBytes pa', ?_⟩
      have := pieces_bytes hpa
      rw [h2, piecesBytes_append] at this
      rw [← this]
      simp [piecesBytes, charPiece, Piece.bytes]
  rw [hcr, hpp, pieceBoundary_seq]
  cases last with
  | bad x =>
    rw [ctx_bad]
    simp [brk, charPiece]
  | seq bs =>
    rw [ctx_seq, brk, breakB_ascii _ _ b hb]
    have e1 : (seqProps bs).gcb = .CR ↔ Piece.seq bs = .seq [0x0D] := by
      constructor
      · intro h; rw [seqProps_cr h]
      · intro h
        cases h
        rw [ascii_props' 0x0D (by decide), if_pos rfl]
    have e2 : (seqProps bs).gcb = .Prepend ↔ ∃ c : Char, gcbOf c = .Prepend ∧ Piece.seq bs = charPiece c := by
      constructor
      · intro h
        by_cases hc : ∃ c : Char, String.utf8EncodeChar c = bs
        · obtain ⟨c, rfl⟩ := hc
          rw [seqProps_encode] at h
          exact ⟨c, h, rfl⟩
        · rw [seqProps_none fun c hc' => hc ⟨c, hc'⟩] at h
          cases h
      · rintro ⟨c, h, h'⟩
        cases h'
        rw [seqProps_encode]
        exact h
    rw [e1, e2]

/-- A letter after "é" and after ARABIC NUMBER SIGN (Prepend), LF after CR. -/
example : tokens [0xC3, 0xA9, 0x61] = .ok [[0xC3, 0xA9], [0x61]] ∧ tokens [0xD8, 0x80, 0x61] = .ok [[0xD8, 0x80, 0x61]] ∧
    gcbOf '\u0600' = .Prepend ∧ String.utf8EncodeChar '\u0600' = [0xD8, 0x80] ∧ tokens [0x0D, 0x0A] = .ok [[0x0D, 0x0A]] := by
  decide +kernel

/-- C49: at an ASCII control character (tab, LF, NUL, ...) that is not part of a CR LF, any byte string may be cut: the
tokens are those of the part before, the control character, and those of the part after. -/
theorem C49_control_separates (pre post : List UInt8) (b : UInt8) (hb : b < 0x20 ∨ b = 0x7F)
    (h1 : ¬ (b = 0x0A ∧ pre.getLast? = some 0x0D)) (h2 : ¬ (b = 0x0D ∧ post.head? = some 0x0A))
    (tpre tpost : List (List UInt8)) (hpre : tokens pre = .ok tpre) (hpost : tokens post = .ok tpost) :
    tokens (pre ++ b :: post) = .ok (tpre ++ [b] :: tpost) := by
  have hb80 : b < 0x80 := by
    rcases hb with h | h
    · have h' : b.toNat < 0x20 := h
      show b.toNat < 0x80
      omega
    · rw [h]; decide
  have hb7f : b.toNat ≤ 0x7F := by have h' : b.toNat < 0x80 := hb80; omega
  have hnot : ¬ (0x20 ≤ b ∧ b ≠ 0x7F) := by
    rintro ⟨g1, g2⟩
    rcases hb with h | h
    · have h' : b.toNat < 0x20 := h
      have g' : 0x20 ≤ b.toNat := g1
      omega
    · exact g2 h
  -- the part from `b` on
  have hright : tokens (b :: post) = .ok ([b] :: tpost) := by
    obtain ⟨pp, hpp⟩ := pieces_total post
    have hps : Pieces ([b] ++ post) (.seq [b] :: pp) := .seq [b] post pp (.one b hb7f) hpp
    obtain ⟨toks, ht⟩ := tokens_ok ([b] ++ post)
    cases hpn : post with
    | nil =>
      rw [hpn, tokens_nil] at hpost
      cases hpost
      rw [hpn, List.append_nil] at ht
      rw [show (b :: ([] : List UInt8)) = [b] from rfl, ht]
      obtain ⟨k1, k2⟩ : toks.flatten = [b] ∧ True := ⟨tokens_flatten ht, trivial⟩
      have := C21_ascii [b] (by simpa using hb80)
      rw [ht] at this
      cases this
      unfold asciiTokens
      split <;> simp_all [asciiTokens]
    | cons x post' =>
      have hne : pp ≠ [] := by
        rintro rfl
        have := pieces_bytes hpp
        rw [hpn] at this
        cases this
      have hcut := (cutAt_pieces (before := [.seq [b]]) (after := pp) hps ht (by simp) hne).mpr (by
        cases pp with
        | nil => exact absurd rfl hne
        | cons q pp =>
          cases q with
          | bad y => exact pieceBoundary_bad _ _ _
          | seq bs =>
            rw [pieceBoundary_seq, show [Piece.seq [b]] = [] ++ [.seq [b]] from rfl, ctx_seq, brk]
            apply breakB_ctl
            · rintro ⟨g1, g2⟩
              have g1' := seqProps_cr g1
              simp only [List.cons.injEq, and_true] at g1'
              apply h2
              refine ⟨g1', ?_⟩
              have : bs = [0x0A] := by
                by_cases hc : ∃ c : Char, String.utf8EncodeChar c = bs
                · obtain ⟨c, rfl⟩ := hc
                  rw [seqProps_encode] at g2
                  obtain ⟨lo, hi, k1, k2, k3⟩ := gcb_range (by simp) g2
                  rw [lf_ranges, List.mem_singleton] at k1
                  cases k1
                  have : c = '\n' := Char.ext (UInt32.toNat_inj.mp (by show c.val.toNat = 10; omega))
                  rw [this]; decide
                · rw [seqProps_none fun c hc' => hc ⟨c, hc'⟩] at g2
                  cases g2
              subst this
              have hpb := pieces_bytes hpp
              rw [← hpb]
              simp [piecesBytes, Piece.bytes]
            · left
              rw [ascii_props' b hb80]
              by_cases c1 : b = 0x0D
              · rw [if_pos c1]; exact Or.inr (Or.inl rfl)
              · rw [if_neg c1]
                by_cases c2 : b = 0x0A
                · rw [if_pos c2]; exact Or.inr (Or.inr rfl)
                · rw [if_neg c2, if_pos hb]; exact Or.inl rfl)
      rw [show (piecesBytes [Piece.seq [b]]).length = [b].length from rfl] at hcut
      obtain ⟨ta, tb, k1, k2, k3⟩ := tokens_cut ht hcut
      rw [hpost] at k2
      cases k2
      have := C21_ascii [b] (by simpa using hb80)
      rw [k1] at this
      cases this
      rw [← hpn, show b :: post = [b] ++ post from rfl, ht, k3]
      congr 1
      unfold asciiTokens
      split <;> simp_all [asciiTokens]
  by_cases hp : pre = []
  · subst hp
    rw [tokens_nil] at hpre
    cases hpre
    exact hright
  · obtain ⟨toks, ht⟩ := tokens_ok (pre ++ b :: post)
    have hcut := (C49_ascii_begins_token pre post b hb80 hp toks ht).mpr ⟨h1, fun h => hnot ⟨h.1, h.2.1⟩⟩
    obtain ⟨ta, tb, k1, k2, k3⟩ := tokens_cut ht hcut
    rw [hpre] at k1
    rw [hright] at k2
    cases k1
    cases k2
    rw [ht, k3]

/-- C49: the same for CR LF. -/
theorem C49_crlf_separates (pre post : List UInt8) (tpre tpost : List (List UInt8)) (hpre : tokens pre = .ok tpre)
    (hpost : tokens post = .ok tpost) :
    tokens (pre ++ 0x0D :: 0x0A :: post) = .ok (tpre ++ [0x0D, 0x0A] :: tpost) := by
  obtain ⟨toks, ht⟩ := tokens_ok (0x0D :: 0x0A :: post)
  -- the part from CR on
  have hlf : tokens (0x0A :: post) = .ok ([0x0A] :: tpost) := by
    have := C49_control_separates [] post 0x0A (by decide) (by simp) (fun h => absurd h.1 (by decide)) [] tpost tokens_nil hpost
    exact this
  have hright : tokens (0x0D :: 0x0A :: post) = .ok ([0x0D, 0x0A] :: tpost) := by
    obtain ⟨pp, hpp⟩ := pieces_total post
    have hps : Pieces ([0x0D] ++ ([0x0A] ++ post)) (.seq [0x0D] :: .seq [0x0A] :: pp) :=
      .seq [0x0D] _ _ (.one _ (by decide)) (.seq [0x0A] post pp (.one _ (by decide)) hpp)
    have hfl := tokens_flatten ht
    have hcrlf : tokens [0x0D, 0x0A] = .ok [[0x0D, 0x0A]] := C21_ascii _ (by decide)
    by_cases hpn : pp = []
    · subst hpn
      have : post = [] := (pieces_bytes hpp).symm
      subst this
      rw [tokens_nil] at hpost
      cases hpost
      exact hcrlf
    · have hcut := (cutAt_pieces (before := [.seq [0x0D], .seq [0x0A]]) (after := pp) hps ht (by simp) hpn).mpr (by
        cases pp with
        | nil => exact absurd rfl hpn
        | cons q pp =>
          cases q with
          | bad y => exact pieceBoundary_bad _ _ _
          | seq bs =>
            rw [pieceBoundary_seq, show [Piece.seq [0x0D], .seq [0x0A]] = [.seq [0x0D]] ++ [.seq [0x0A]] from rfl, ctx_seq, brk]
            rw [ascii_props' 0x0A (by decide)]
            apply breakB_ctl
            · simp
            · left; exact Or.inr (Or.inr rfl))
      rw [show (piecesBytes [Piece.seq [0x0D], .seq [0x0A]]).length = [(0x0D : UInt8), 0x0A].length from rfl] at hcut
      obtain ⟨ta, tb, k1, k2, k3⟩ := tokens_cut (a := [0x0D, 0x0A]) ht hcut
      rw [hpost] at k2
      rw [hcrlf] at k1
      cases k1
      cases k2
      rw [ht, k3]
      rfl
  by_cases hp : pre = []
  · subst hp
    rw [tokens_nil] at hpre
    cases hpre
    exact hright
  · obtain ⟨toks', ht'⟩ := tokens_ok (pre ++ 0x0D :: 0x0A :: post)
    have hcut := (C49_ascii_begins_token pre _ 0x0D (by decide) hp toks' ht').mpr ⟨by simp, fun h => absurd h.1 (by decide)⟩
    obtain ⟨ta, tb, k1, k2, k3⟩ := tokens_cut ht' hcut
    rw [hpre] at k1
    rw [hright] at k2
    cases k1
    cases k2
    rw [ht', k3]

/-- Two lines that are not valid UTF-8: the first ends in half a sequence, the second begins with a continuation byte. -/
example : tokens [0x61, 0xE2, 0x82] = .ok [[0x61], [0xE2], [0x82]] ∧ tokens [0xAC, 0x62] = .ok [[0xAC], [0x62]] ∧
    tokens ([0x61, 0xE2, 0x82] ++ 0x0A :: [0xAC, 0x62]) = .ok [[0x61], [0xE2], [0x82], [0x0A], [0xAC], [0x62]] := by
  decide +kernel

/-! ## C50: counting -/

/-- C50: joining two texts never gives more tokens than they have together, and at most two fewer. -/
theorem C50_joining_counts (a b : List Char) (ta tb tab : List (List UInt8)) (ha : tokens (utf8 a) = .ok ta)
    (hb : tokens (utf8 b) = .ok tb) (hab : tokens (utf8 (a ++ b)) = .ok tab) :
    tab.length ≤ ta.length + tb.length ∧ ta.length + tb.length ≤ tab.length + 2 := by
  have e1 := tokens_count ha
  have e2 := tokens_count hb
  have e3 := tokens_count hab
  rw [List.map_append, numBreaks_append, List.append_nil] at e3
  have := numBreaks_context (a := (a.map fun c => ucd c.val.toNat).reverse) (b := b.map fun c => ucd c.val.toNat)
    (by
      intro x hx
      rw [List.mem_reverse, List.mem_map] at hx
      obtain ⟨c, _, rfl⟩ := hx
      exact ucd_consistent _)
    (by
      intro x hx
      rw [List.mem_map] at hx
      obtain ⟨c, _, rfl⟩ := hx
      exact ucd_consistent _)
  omega

/-- Each of the three differences occurs: "a" and "b"; "e" and ACUTE ACCENT; WOMAN and ZERO WIDTH JOINER, PERSONAL COMPUTER. -/
example : (∃ ta tb tab, tokens (utf8 ['a']) = .ok ta ∧ tokens (utf8 ['b']) = .ok tb ∧ tokens (utf8 (['a'] ++ ['b'])) = .ok tab ∧
      tab.length = ta.length + tb.length) ∧
    (∃ ta tb tab, tokens (utf8 ['e']) = .ok ta ∧ tokens (utf8 ['\u0301']) = .ok tb ∧
      tokens (utf8 (['e'] ++ ['\u0301'])) = .ok tab ∧ tab.length + 1 = ta.length + tb.length) ∧
    (∃ ta tb tab, tokens (utf8 [(Char.ofNat 0x1F469)]) = .ok ta ∧ tokens (utf8 ['\u200D', (Char.ofNat 0x1F4BB)]) = .ok tb ∧
      tokens (utf8 ([(Char.ofNat 0x1F469)] ++ ['\u200D', (Char.ofNat 0x1F4BB)])) = .ok tab ∧ tab.length + 2 = ta.length + tb.length) :=
  ⟨⟨[[0x61]], [[0x62]], [[0x61], [0x62]], by decide +kernel⟩,
   ⟨[[0x65]], [[0xCC, 0x81]], [[0x65, 0xCC, 0x81]], by decide +kernel⟩,
   ⟨[[0xF0, 0x9F, 0x91, 0xA9]], [[0xE2, 0x80, 0x8D], [0xF0, 0x9F, 0x92, 0xBB]],
    [[0xF0, 0x9F, 0x91, 0xA9, 0xE2, 0x80, 0x8D, 0xF0, 0x9F, 0x92, 0xBB]], by decide +kernel⟩⟩

end Textseg.Props
