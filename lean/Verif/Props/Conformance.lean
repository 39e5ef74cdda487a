import Verif.Proofs.Local
/-!
# Conformance to UAX #29
-/

namespace Textseg.Props
open Textseg Spec

/-- C05: the tokens of a text (any sequence of Unicode scalar values, in UTF-8) are the segments of the text when it is
cut exactly where the rules of UAX #29 demand a boundary, with the property values of the shipped data files. -/
theorem C05_conforms_to_UAX29 (cs : List Char) :
    ∃ segs : List (List Char), IsSegmentation CharBoundary cs segs ∧ tokens (utf8 cs) = .ok (segs.map utf8) :=
  tokens_text cs

/-- C05, as a statement about positions: there is a token boundary after `before` exactly if UAX #29 demands one. -/
theorem C05_boundaries (before after : List Char) (hb : before ≠ []) (ha : after ≠ []) (toks : List (List UInt8))
    (ht : tokens (utf8 (before ++ after)) = .ok toks) :
    CutAt toks (utf8 before).length ↔ CharBoundary before after :=
  cutAt_text ht hb ha

/-- The specification determines the result: a text has only one segmentation for given boundaries. -/
theorem C05_segmentation_unique {α : Type} (B : List α → List α → Prop) (text : List α) (s t : List (List α))
    (hs : IsSegmentation B text s) (ht : IsSegmentation B text t) : s = t :=
  isSegmentation_unique hs ht

/-- Woman, ZWJ, laptop, a flag, KA VIRAMA SSA, a Hangul syllable in jamo: four tokens. -/
example : tokens (utf8 ['👩', '\u200D', '💻', '🇦', '🇧', 'क', '\u094D', 'ष', '\u1112', '\u1161', '\u11AB']) =
    .ok [utf8 ['👩', '\u200D', '💻'], utf8 ['🇦', '🇧'], utf8 ['क', '\u094D', 'ष'], utf8 ['\u1112', '\u1161', '\u11AB']] := by
  decide +kernel

/-- C06: for every byte string: read it as sequences and left-over bytes; the tokens are the segments of that list when
it is cut on both sides of every left-over byte and where UAX #29 demands a boundary in a run of sequences. -/
theorem C06_conforms_on_arbitrary_bytes (data : List UInt8) :
    ∃ ps segs, Pieces data ps ∧ IsSegmentation PieceBoundary ps segs ∧
      tokens data = .ok (segs.map piecesBytes) := by
  obtain ⟨ps, segs, h1, h2, h3⟩ := exists_clusters data
  exact ⟨ps, segs, h1, clusters_segmentation h2, h3⟩

/-- The reading of a byte string as pieces is unique, and keeps all its bytes. -/
theorem C06_pieces_unique (data : List UInt8) (ps ps' : List Piece) (h : Pieces data ps) (h' : Pieces data ps') :
    ps = ps' ∧ piecesBytes ps = data := ⟨pieces_unique h h', pieces_bytes h⟩

/-- "e", a stray byte, ACUTE ACCENT (which cannot join "e"), an overlong form followed by ACUTE ACCENT. -/
example : tokens [0x65, 0xFF, 0xCC, 0x81, 0xC0, 0x80, 0xCC, 0x81] =
    .ok [[0x65], [0xFF], [0xCC, 0x81], [0xC0, 0x80, 0xCC, 0x81]] := by decide +kernel

/-- C07: a left-over byte is always a token of its own, at its own place. -/
theorem C07_invalid_byte_is_own_token (data : List UInt8) (before after : List Piece) (b : UInt8)
    (hps : Pieces data (before ++ [.bad b] ++ after)) (toks : List (List UInt8)) (ht : tokens data = .ok toks) :
    ∃ t1 t2, toks = t1 ++ [[b]] ++ t2 ∧ t1.flatten = piecesBytes before ∧ t2.flatten = piecesBytes after := by
  obtain ⟨segs, hs, rfl⟩ := clusters_of_tokens hps ht
  have hseg := clusters_segmentation hs
  -- `before` is made of whole segments
  have h1 : ∃ k, before = (segs.take k).flatten := by
    by_cases hb : before = []
    · exact ⟨0, by simp [hb]⟩
    · refine (hseg.cuts before ([.bad b] ++ after) (by simp) hb (by simp)).mp (pieceBoundary_bad _ _ _)
  have h2 : ∃ k, before ++ [.bad b] = (segs.take k).flatten := by
    by_cases ha : after = []
    · refine ⟨segs.length, ?_⟩
      rw [List.take_length, hseg.concat, ha, List.append_nil]
    · exact (hseg.cuts (before ++ [.bad b]) after rfl (by simp) ha).mp (pieceBoundary_of_ctx_nil (ctx_bad before b) _)
  obtain ⟨k, hk⟩ := h1
  obtain ⟨j, hj⟩ := h2
  have hcat := hseg.concat
  have hd := flatten_take_prefix segs k
  rw [hcat, ← hk, List.append_assoc] at hd
  have hd := List.append_cancel_left hd
  -- the next segment begins with the bad byte
  cases hdk : segs.drop k with
  | nil => rw [hdk] at hd; simp at hd
  | cons s rest =>
    rw [hdk, List.flatten_cons] at hd
    have hsne : s ≠ [] := hseg.nonempty s (List.mem_of_mem_drop (hdk ▸ List.mem_cons_self))
    have hsplit : segs = segs.take k ++ s :: rest := by rw [← hdk, List.take_append_drop]
    have hkj : (segs.take k).length < j := by
      apply Nat.lt_of_not_le
      intro hle
      have h1 := congrArg List.length hj
      have h2 := congrArg List.length hk
      have h3 : (segs.take j).flatten.length ≤ (segs.take k).flatten.length := by
        have : segs.take j = (segs.take k).take j := by
          rw [List.length_take] at hle
          rw [List.take_take]; congr 1; omega
        rw [this]
        have := flatten_take_prefix (segs.take k) j
        have := congrArg List.length this
        rw [List.length_append] at this
        omega
      rw [List.length_append, List.length_singleton] at h1
      omega
    have hsb : s = [.bad b] := by
      match s, hsne with
      | x :: s, _ =>
        simp only [List.cons_append, List.nil_append, List.cons.injEq] at hd
        have hj' : (segs.take j).flatten = (segs.take k).flatten ++ (x :: s) ++
            (rest.take (j - (segs.take k).length - 1)).flatten := by
          conv => lhs; rw [hsplit]
          rw [List.take_append, List.take_of_length_le (by omega)]
          obtain ⟨m, hm⟩ : ∃ m, j - (segs.take k).length = m + 1 := ⟨j - (segs.take k).length - 1, by omega⟩
          rw [hm, List.take_succ_cons]
          simp
        rw [← hj, ← hk, List.append_assoc] at hj'
        have := List.append_cancel_left hj'
        have hl := congrArg List.length this
        simp only [List.length_nil, List.length_append, List.length_cons] at hl
        have : s = [] := List.eq_nil_of_length_eq_zero (by omega)
        rw [this, ← hd.1]
    subst hsb
    refine ⟨(segs.take k).map piecesBytes, rest.map piecesBytes, ?_, ?_, ?_⟩
    · conv => lhs; rw [hsplit]
      simp [piecesBytes, Piece.bytes]
    · rw [← piecesBytes_flatten, ← hk]
    · simp only [List.cons_append, List.nil_append, List.cons.injEq, true_and] at hd
      rw [← piecesBytes_flatten, ← hd]

/-- The hypothesis holds: the lead byte of a sequence that is not continued. -/
example : Pieces [0x61, 0xC3, 0x62] ([.seq [0x61]] ++ [.bad 0xC3] ++ [.seq [0x62]]) := by
  refine .seq [0x61] [0xC3, 0x62] _ (.one _ (by decide)) (.bad 0xC3 [0x62] _ ?_ (.seq [0x62] [] _ (.one _ (by decide)) .nil))
  exact not_startsWithSeq_of_error (by decide +kernel)

/-- C08: every token is one left-over byte or a concatenation of one or more complete sequences. -/
theorem C08_no_boundary_inside_a_sequence (data : List UInt8) (ps : List Piece) (hps : Pieces data ps)
    (toks : List (List UInt8)) (ht : tokens data = .ok toks) :
    ∀ t ∈ toks, (∃ b, .bad b ∈ ps ∧ t = [b]) ∨
      (∃ ss : List (List UInt8), ss ≠ [] ∧ (∀ s ∈ ss, IsSeq s ∧ .seq s ∈ ps) ∧ t = ss.flatten) := by
  obtain ⟨segs, hs, rfl⟩ := clusters_of_tokens hps ht
  have hseq : ∀ s, .seq s ∈ ps → IsSeq s := by
    clear ht hs
    induction hps with
    | nil => simp
    | seq bs rest ps h1 h2 ih =>
      intro s hs
      rcases List.mem_cons.mp hs with h | h
      · cases h; exact h1
      · exact ih s h
    | bad b rest ps h1 h2 ih =>
      intro s hs
      rcases List.mem_cons.mp hs with h | h
      · cases h
      · exact ih s h
  intro t htm
  obtain ⟨c, hc, rfl⟩ := List.mem_map.mp htm
  -- a cluster is one left-over byte or consists of sequences
  have hshape : (∃ b, c = [.bad b]) ∨ (∃ ss : List (List UInt8), ss ≠ [] ∧ c = ss.map .seq) := by
    clear ht htm hseq hps
    have htake : ∀ (qs : List Piece) R, ∃ ss : List (List UInt8), takeCluster R qs = ss.map .seq := by
      intro qs
      induction qs with
      | nil => intro R; exact ⟨[], rfl⟩
      | cons q qs ih =>
        intro R
        cases q with
        | bad b => exact ⟨[], rfl⟩
        | seq bs =>
          rw [takeCluster]
          split
          · exact ⟨[], rfl⟩
          · obtain ⟨ss, hss⟩ := ih (seqProps bs :: R)
            exact ⟨bs :: ss, by rw [hss]; rfl⟩
    induction hs with
    | nil => cases hc
    | cons qs rest segs hp hr hcl ih =>
      rcases List.mem_cons.mp hc with rfl | hc
      · match qs, hp with
        | .bad b :: qs, _ => exact Or.inl ⟨b, rfl⟩
        | .seq bs :: qs, _ =>
          obtain ⟨ss, hss⟩ := htake qs [seqProps bs]
          exact Or.inr ⟨bs :: ss, by simp, by rw [firstCluster, hss]; rfl⟩
      · exact ih hc
  have hsub : ∀ p ∈ c, p ∈ ps := by
    intro p hp
    rw [← clusters_concat hs]
    exact List.mem_flatten.mpr ⟨c, hc, hp⟩
  rcases hshape with ⟨b, rfl⟩ | ⟨ss, h1, rfl⟩
  · exact Or.inl ⟨b, hsub _ (by simp), rfl⟩
  · refine Or.inr ⟨ss, h1, fun s hm => ?_, ?_⟩
    · have : Piece.seq s ∈ ps := hsub _ (List.mem_map_of_mem hm)
      exact ⟨hseq s this, this⟩
    · simp [piecesBytes, List.flatMap_map, Piece.bytes, List.flatMap_id']

/-- C08, valid UTF-8: every token of the UTF-8 encoding of a text is the UTF-8 encoding of a non-empty part of it. -/
theorem C08_valid_utf8 (cs : List Char) :
    ∃ parts : List (List Char), parts.flatten = cs ∧ (∀ p ∈ parts, p ≠ []) ∧ tokens (utf8 cs) = .ok (parts.map utf8) := by
  obtain ⟨segs, h1, h2⟩ := tokens_text cs
  exact ⟨segs, h1.concat, h1.nonempty, h2⟩

/-- The hypotheses of C08 hold, with both kinds of token. -/
example : Pieces [0xE2, 0x82, 0xAC, 0x80] [.seq [0xE2, 0x82, 0xAC], .bad 0x80] ∧
    tokens [0xE2, 0x82, 0xAC, 0x80] = .ok [[0xE2, 0x82, 0xAC], [0x80]] := by
  refine ⟨.seq [0xE2, 0x82, 0xAC] [0x80] _ (.three _ _ _ (by decide) (by decide) (by decide) (by decide))
    (.bad 0x80 [] _ (not_startsWithSeq_of_error (by decide +kernel)) .nil), by decide +kernel⟩

/-- C22: if there is a token boundary after `a` in `a ++ b`, the tokens are those of `a` followed by those of `b`. -/
theorem C22_cutting_at_a_boundary (a b : List UInt8) (toks : List (List UInt8)) (ht : tokens (a ++ b) = .ok toks)
    (hcut : CutAt toks a.length) :
    ∃ ta tb, tokens a = .ok ta ∧ tokens b = .ok tb ∧ toks = ta ++ tb := by
  obtain ⟨k, hk⟩ := hcut
  obtain ⟨ps, hps⟩ := pieces_total (a ++ b)
  obtain ⟨segs, hs, hseg⟩ := clusters_of_tokens hps ht
  have hflat : toks.flatten = a ++ b := by
    rw [hseg, ← piecesBytes_flatten, clusters_concat hs, pieces_bytes hps]
  obtain ⟨h1, h2⟩ := flatten_take_length_inj hflat rfl k hk
  obtain ⟨h3, h4⟩ := tokens_split_at ht k
  exact ⟨toks.take k, toks.drop k, by rw [h1]; exact h3, by rw [h2]; exact h4, (List.take_append_drop k toks).symm⟩

/-- C22: segmenting a token again gives just that token. -/
theorem C22_token_of_token (data : List UInt8) (toks : List (List UInt8)) (ht : tokens data = .ok toks) :
    ∀ t ∈ toks, tokens t = .ok [t] := by
  intro t htm
  obtain ⟨t1, t2, rfl⟩ := List.append_of_mem htm
  have h1 := (tokens_split_at ht t1.length).2
  rw [List.drop_left] at h1
  have h2 := (tokens_split_at h1 1).1
  simpa using h2

/-- The hypotheses hold: "a", ACUTE ACCENT | "b". -/
example : tokens ([0x61, 0xCC, 0x81] ++ [0x62]) = .ok [[0x61, 0xCC, 0x81], [0x62]] ∧
    CutAt [[0x61, 0xCC, 0x81], [(0x62 : UInt8)]] [(0x61 : UInt8), 0xCC, 0x81].length :=
  ⟨by decide +kernel, 1, rfl⟩

end Textseg.Props
