import Verif.Proofs.Tokens
/-!
# Token boundaries by byte offset
-/

namespace Textseg
open Spec

theorem pieces_ne_nil {data : List UInt8} {ps : List Piece} (h : Pieces data ps) : ∀ p ∈ ps, p.bytes ≠ [] := by
  induction h with
  | nil => simp
  | seq bs rest ps h1 h2 ih => simpa [Piece.bytes] using ⟨h1.ne_nil, ih⟩
  | bad b rest ps h1 h2 ih => simpa [Piece.bytes] using ih

theorem piecesBytes_append (a b : List Piece) : piecesBytes (a ++ b) = piecesBytes a ++ piecesBytes b := by
  simp [piecesBytes]

theorem piecesBytes_flatten (segs : List (List Piece)) :
    piecesBytes segs.flatten = (segs.map piecesBytes).flatten := by
  induction segs with
  | nil => rfl
  | cons s segs ih => rw [List.flatten_cons, piecesBytes_append, ih, List.map_cons, List.flatten_cons]

theorem piecesBytes_length_pos {ps : List Piece} (h : ∀ p ∈ ps, p.bytes ≠ []) (hp : ps ≠ []) :
    0 < (piecesBytes ps).length := by
  cases ps with
  | nil => exact absurd rfl hp
  | cons p ps =>
    have := List.length_pos_iff.mpr (h p (by simp))
    simp only [piecesBytes, List.flatMap_cons, List.length_append]
    omega

theorem piecesBytes_prefix_inj {p1 p2 q1 q2 : List Piece} (hne : ∀ p ∈ p1 ++ p2, p.bytes ≠ [])
    (h : p1 ++ p2 = q1 ++ q2) (hl : (piecesBytes p1).length = (piecesBytes q1).length) : p1 = q1 := by
  rcases List.append_eq_append_iff.mp h with ⟨x, h1, h2⟩ | ⟨x, h1, h2⟩
  · by_cases hx : x = []
    · rw [h1, hx, List.append_nil]
    · rw [h1, piecesBytes_append, List.length_append] at hl
      have := piecesBytes_length_pos (ps := x) (fun p hp => hne p (by rw [h2]; simp [hp])) hx
      omega
  · by_cases hx : x = []
    · rw [h1, hx, List.append_nil]
    · rw [h1, piecesBytes_append, List.length_append] at hl
      have := piecesBytes_length_pos (ps := x) (fun p hp => hne p (by rw [h1]; simp [hp])) hx
      omega

theorem exists_clusters (data : List UInt8) : ∃ ps segs, Pieces data ps ∧ Clusters ps segs ∧
    tokens data = .ok (segs.map piecesBytes) := by
  obtain ⟨ps, hps⟩ := pieces_total data
  obtain ⟨segs, hs⟩ := clusters_total ps
  exact ⟨ps, segs, hps, hs, tokens_eq hps hs⟩

theorem clusters_of_tokens {data : List UInt8} {ps : List Piece} {toks : List (List UInt8)} (hps : Pieces data ps)
    (ht : tokens data = .ok toks) : ∃ segs, Clusters ps segs ∧ toks = segs.map piecesBytes := by
  obtain ⟨segs, hs⟩ := clusters_total ps
  rw [tokens_eq hps hs] at ht
  exact ⟨segs, hs, (Except.ok.inj ht).symm⟩

theorem flatten_take_prefix {α : Type} (segs : List (List α)) (k : Nat) :
    segs.flatten = (segs.take k).flatten ++ (segs.drop k).flatten := by
  rw [← List.flatten_append, List.take_append_drop]

/-- Token boundaries between pieces. -/
theorem cutAt_pieces {data : List UInt8} {before after : List Piece} {toks : List (List UInt8)}
    (hps : Pieces data (before ++ after)) (ht : tokens data = .ok toks) (hb : before ≠ []) (ha : after ≠ []) :
    CutAt toks (piecesBytes before).length ↔ PieceBoundary before after := by
  obtain ⟨segs, hs, rfl⟩ := clusters_of_tokens hps ht
  have hseg := clusters_segmentation hs
  rw [hseg.cuts before after rfl hb ha]
  unfold CutAt
  refine exists_congr fun k => ?_
  rw [← List.map_take, ← piecesBytes_flatten]
  constructor
  · intro h
    exact piecesBytes_prefix_inj (pieces_ne_nil hps) (hseg.concat.symm.trans (flatten_take_prefix segs k)) h
  · intro h; rw [h]

/-- Token boundaries occur only between pieces. -/
theorem cutAt_only_pieces {data : List UInt8} {ps : List Piece} {toks : List (List UInt8)} {n : Nat}
    (hps : Pieces data ps) (ht : tokens data = .ok toks) (h : CutAt toks n) :
    ∃ before after, ps = before ++ after ∧ n = (piecesBytes before).length := by
  obtain ⟨segs, hs, rfl⟩ := clusters_of_tokens hps ht
  have hseg := clusters_segmentation hs
  obtain ⟨k, hk⟩ := h
  refine ⟨(segs.take k).flatten, (segs.drop k).flatten, hseg.concat.symm.trans (flatten_take_prefix segs k), ?_⟩
  rw [hk, ← List.map_take, ← piecesBytes_flatten]

/-- Token boundaries in a text. -/
theorem cutAt_text {before after : List Char} {toks : List (List UInt8)}
    (ht : tokens (utf8 (before ++ after)) = .ok toks) (hb : before ≠ []) (ha : after ≠ []) :
    CutAt toks (utf8 before).length ↔ CharBoundary before after := by
  have hps := pieces_utf8 (before ++ after)
  rw [List.map_append] at hps
  have := cutAt_pieces hps ht (by simpa using hb) (by simpa using ha)
  rw [piecesBytes_map] at this
  rw [this, pieceBoundary_map _ _ hb ha]

/-- The reversed context of a text. -/
def rctx (before : List Char) : Text := (before.map fun c => ucd c.val.toNat).reverse

theorem charBoundary_iff (pre : List Char) (a b : Char) (post : List Char) :
    CharBoundary (pre ++ [a]) (b :: post) ↔
      breakB (flags (rctx (pre ++ [a]))) (ucd a.val.toNat) (ucd b.val.toNat) = true := by
  unfold CharBoundary
  have := boundary_iff (rctx (pre ++ [a])) (ucd b.val.toNat) (post.map fun c => ucd c.val.toNat)
  rw [rctx, List.reverse_reverse] at this
  rw [List.map_cons, this]
  simp [brk, rctx]

theorem tokens_ok (data : List UInt8) : ∃ toks, tokens data = .ok toks := by
  obtain ⟨_, _, _, _, h⟩ := exists_clusters data
  exact ⟨_, h⟩

/-- The segmentation of a text. -/
theorem tokens_text (cs : List Char) : ∃ segs : List (List Char), IsSegmentation CharBoundary cs segs ∧
    tokens (utf8 cs) = .ok (segs.map utf8) := by
  obtain ⟨segs, hs⟩ := clusters_total (cs.map charPiece)
  have h1 := tokens_eq (pieces_utf8 cs) hs
  obtain ⟨segs', h2, h3⟩ := isSegmentation_of_map charPiece_injective (clusters_segmentation hs)
  refine ⟨segs', isSegmentation_congr (fun b a _ hb ha => pieceBoundary_map b a hb ha) h3, ?_⟩
  rw [h1, h2, List.map_map]
  congr 1
  apply List.map_congr_left
  intro s _
  exact piecesBytes_map s

end Textseg
