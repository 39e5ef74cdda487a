import Verif.Proofs.Cuts
/-!
# Cutting at a boundary
-/

namespace Textseg
open Spec

theorem pieces_prefix {p1 p2 : List Piece} : ∀ {data : List UInt8}, Pieces data (p1 ++ p2) → Pieces (piecesBytes p1) p1 := by
  induction p1 with
  | nil => intro data _; exact .nil
  | cons p p1 ih =>
    intro data h
    cases h with
    | seq bs rest _ h1 h2 =>
      have := Pieces.seq bs _ _ h1 (ih h2)
      simpa [piecesBytes, Piece.bytes] using this
    | bad b rest _ h1 h2 =>
      obtain ⟨r, h3, _⟩ := pieces_drop h2
      have := Pieces.bad b (piecesBytes p1) p1 ?_ (ih h2)
      · simpa [piecesBytes, Piece.bytes] using this
      · rintro ⟨bs, rest', h4, h5⟩
        exact h1 ⟨bs, rest' ++ r, h4, by rw [h3, ← List.append_assoc, ← h5]; rfl⟩

theorem takeCluster_shorten (ps : List Piece) : ∀ (R : Text) (r' r'' : List Piece),
    ps = takeCluster R ps ++ (r' ++ r'') → takeCluster R (takeCluster R ps ++ r') = takeCluster R ps := by
  induction ps with
  | nil =>
    intro R r' r'' h
    simp only [takeCluster, List.nil_append, List.nil_eq, List.append_eq_nil_iff] at h
    simp [takeCluster, h.1]
  | cons p ps ih =>
    intro R r' r'' h
    cases p with
    | bad b =>
      simp only [takeCluster, List.nil_append] at h ⊢
      cases r' with
      | nil => rfl
      | cons x r' =>
        simp only [List.cons_append, List.cons.injEq] at h
        rw [← h.1]; rfl
    | seq bs =>
      cases hb : brk R (seqProps bs)
      · have htc : ∀ qs, takeCluster R (.seq bs :: qs) = .seq bs :: takeCluster (seqProps bs :: R) qs := by
          intro qs; rw [takeCluster, if_neg (by simp [hb])]
        rw [htc] at h ⊢
        simp only [List.cons_append, List.cons.injEq, true_and] at h
        rw [List.cons_append, htc, ih _ r' r'' h]
      · have htc : ∀ qs, takeCluster R (.seq bs :: qs) = [] := by
          intro qs; rw [takeCluster, if_pos hb]
        rw [htc] at h ⊢
        simp only [List.nil_append] at h ⊢
        cases r' with
        | nil => rfl
        | cons x r' =>
          simp only [List.cons_append, List.cons.injEq] at h
          rw [← h.1, htc]

theorem firstCluster_shorten (ps r' r'' : List Piece) (h : ps = firstCluster ps ++ (r' ++ r'')) :
    firstCluster (firstCluster ps ++ r') = firstCluster ps := by
  match ps with
  | [] =>
    simp only [firstCluster, List.nil_append, List.nil_eq, List.append_eq_nil_iff] at h
    simp [firstCluster, h.1]
  | .bad b :: ps => rfl
  | .seq bs :: ps =>
    simp only [firstCluster, List.cons_append, List.cons.injEq, true_and] at h ⊢
    exact takeCluster_shorten ps _ r' r'' h

theorem clusters_concat {ps : List Piece} {segs : List (List Piece)} (h : Clusters ps segs) : segs.flatten = ps :=
  (clusters_segmentation h).concat

theorem clusters_take {ps : List Piece} {segs : List (List Piece)} (h : Clusters ps segs) (k : Nat) :
    Clusters (segs.take k).flatten (segs.take k) := by
  induction h generalizing k with
  | nil => rw [List.take_nil]; exact .nil
  | cons ps rest segs hp hr hc ih =>
    cases k with
    | zero => exact .nil
    | succ k =>
      rw [List.take_succ_cons, List.flatten_cons]
      have hrest : rest = (segs.take k).flatten ++ (segs.drop k).flatten := by
        rw [← flatten_take_prefix, clusters_concat hc]
      have hs := firstCluster_shorten ps (segs.take k).flatten (segs.drop k).flatten (by rw [← hrest]; exact hr)
      have := Clusters.cons (firstCluster ps ++ (segs.take k).flatten) (segs.take k).flatten (segs.take k)
        (by simp [firstCluster_ne_nil hp]) (by rw [hs]) (ih k)
      rwa [hs] at this

theorem clusters_drop {ps : List Piece} {segs : List (List Piece)} (h : Clusters ps segs) (k : Nat) :
    Clusters (segs.drop k).flatten (segs.drop k) := by
  induction h generalizing k with
  | nil => rw [List.drop_nil]; exact .nil
  | cons ps rest segs hp hr hc ih =>
    cases k with
    | zero =>
      have := Clusters.cons ps rest segs hp hr hc
      rw [List.drop_zero, clusters_concat this]
      exact this
    | succ k => rw [List.drop_succ_cons]; exact ih k

theorem tokens_split_at {data : List UInt8} {toks : List (List UInt8)} (ht : tokens data = .ok toks) (k : Nat) :
    tokens (toks.take k).flatten = .ok (toks.take k) ∧ tokens (toks.drop k).flatten = .ok (toks.drop k) := by
  obtain ⟨ps, hps⟩ := pieces_total data
  obtain ⟨segs, hs, rfl⟩ := clusters_of_tokens hps ht
  have hseg := clusters_concat hs
  rw [flatten_take_prefix segs k] at hseg
  rw [← hseg] at hps
  rw [← List.map_take, ← List.map_drop, ← piecesBytes_flatten, ← piecesBytes_flatten]
  obtain ⟨r, h1, h2⟩ := pieces_drop hps
  have h3 := pieces_bytes h2
  rw [h3]
  exact ⟨tokens_eq (pieces_prefix hps) (clusters_take hs k), tokens_eq h2 (clusters_drop hs k)⟩

theorem flatten_take_length_inj {toks : List (List UInt8)} {data a b : List UInt8} (h : toks.flatten = data)
    (hd : data = a ++ b) (k : Nat) (hk : a.length = (toks.take k).flatten.length) :
    a = (toks.take k).flatten ∧ b = (toks.drop k).flatten := by
  have := flatten_take_prefix toks k
  rw [h, hd] at this
  exact List.append_inj this hk

end Textseg
