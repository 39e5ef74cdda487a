import Verif.Proofs.BreakB
/-!
# What happens to the tokens when texts are joined
-/

namespace Textseg
open Spec

/-- Whether there is a boundary depends only on the next piece, not on what comes after it. -/
theorem pieceBoundary_head {before after after' : List Piece} {p : Piece} (h : PieceBoundary before (p :: after)) :
    PieceBoundary before (p :: after') := by
  cases p with
  | bad b => exact pieceBoundary_bad _ _ _
  | seq bs => exact (pieceBoundary_seq _ _ _).mpr ((pieceBoundary_seq _ _ _).mp h)

/-- A sequence consists of a first byte and continuation bytes. -/
theorem isSeq_tail_cont {bs : List UInt8} (h : IsSeq bs) {x : UInt8} {u v : List UInt8} (hu : u ≠ []) (e : bs = u ++ x :: v) :
    IsCont x := by
  obtain ⟨y, u', rfl⟩ : ∃ y u', u = y :: u' := by cases u with
    | nil => exact absurd rfl hu
    | cons y u' => exact ⟨y, u', rfl⟩
  have hm : x ∈ bs.tail := by rw [e]; simp
  cases h with
  | one b _ => simp at hm
  | two b c _ _ h1 =>
    simp only [List.tail_cons, List.mem_singleton] at hm
    subst hm; exact h1
  | three b c d _ _ h1 h2 =>
    simp only [List.tail_cons, List.mem_cons, List.not_mem_nil, or_false] at hm
    rcases hm with rfl | rfl <;> assumption
  | four b c d e _ _ h1 h2 h3 =>
    simp only [List.tail_cons, List.mem_cons, List.not_mem_nil, or_false] at hm
    rcases hm with rfl | rfl | rfl <;> assumption

/-- Bytes are read as pieces afresh at every byte that is not a continuation byte. -/
theorem pieces_resync {data : List UInt8} {ps : List Piece} (h : Pieces data ps) :
    ∀ (a : List UInt8) (x : UInt8) (b : List UInt8), data = a ++ x :: b → ¬ IsCont x →
      ∃ pa pb, ps = pa ++ pb ∧ Pieces a pa ∧ Pieces (x :: b) pb := by
  induction h with
  | nil => intro a x b e; simp at e
  | seq bs rest ps h1 h2 ih =>
    intro a x b e hx
    rcases List.append_eq_append_iff.mp e with ⟨u, e1, e2⟩ | ⟨u, e1, e2⟩
    · -- the sequence is part of `a`
      obtain ⟨pa, pb, g1, g2, g3⟩ := ih u x b e2 hx
      exact ⟨.seq bs :: pa, pb, by rw [g1]; rfl, by rw [e1]; exact .seq bs u pa h1 g2, g3⟩
    · by_cases ha : a = []
      · refine ⟨[], .seq bs :: ps, rfl, by rw [ha]; exact .nil, ?_⟩
        rw [ha, List.nil_append] at e
        rw [← e]
        exact .seq bs rest ps h1 h2
      · cases u with
        | nil =>
          simp only [List.nil_append, List.append_nil] at e1 e2
          refine ⟨[.seq bs], ps, rfl, ?_, by rw [e2]; exact h2⟩
          rw [← e1]
          have := Pieces.seq bs [] [] h1 .nil
          rwa [List.append_nil] at this
        | cons y u =>
          rw [List.cons_append, List.cons.injEq] at e2
          rw [← e2.1] at e1
          exact absurd (isSeq_tail_cont h1 ha e1) hx
  | bad b0 rest ps h1 h2 ih =>
    intro a x b e hx
    cases a with
    | nil =>
      refine ⟨[], .bad b0 :: ps, rfl, .nil, ?_⟩
      rw [List.nil_append] at e
      rw [← e]
      exact .bad b0 rest ps h1 h2
    | cons y a =>
      rw [List.cons_append, List.cons.injEq] at e
      obtain ⟨pa, pb, g1, g2, g3⟩ := ih a x b e.2 hx
      refine ⟨.bad b0 :: pa, pb, by rw [g1]; rfl, ?_, g3⟩
      rw [← e.1]
      refine .bad b0 a pa ?_ g2
      rintro ⟨bs, r, hbs, hr⟩
      apply h1
      refine ⟨bs, r ++ x :: b, hbs, ?_⟩
      rw [e.2, ← List.cons_append, hr, List.append_assoc]

/-- ... also when the bytes before are read as pieces of their own. -/
theorem pieces_join {a : List UInt8} {x : UInt8} {b : List UInt8} {pa pb : List Piece} (ha : Pieces a pa)
    (hb : Pieces (x :: b) pb) (hx : ¬ IsCont x) : Pieces (a ++ x :: b) (pa ++ pb) := by
  obtain ⟨ps, hps⟩ := pieces_total (a ++ x :: b)
  obtain ⟨pa', pb', e, h1, h2⟩ := pieces_resync hps a x b rfl hx
  rw [pieces_unique ha h1, pieces_unique hb h2, ← e]
  exact hps

/-- A text can be continued with any bytes. -/
theorem pieces_text_append (cs : List Char) {b : List UInt8} {pb : List Piece} (hb : Pieces b pb) :
    Pieces (utf8 cs ++ b) (cs.map charPiece ++ pb) := by
  induction cs with
  | nil => exact hb
  | cons c cs ih =>
    rw [utf8, List.flatMap_cons, List.append_assoc]
    exact .seq _ _ _ (isSeq_encode c) ih

theorem tokens_flatten {data : List UInt8} {toks : List (List UInt8)} (ht : tokens data = .ok toks) :
    toks.flatten = data := by
  obtain ⟨ps, hps⟩ := pieces_total data
  obtain ⟨segs, hs, rfl⟩ := clusters_of_tokens hps ht
  rw [← piecesBytes_flatten, clusters_concat hs, pieces_bytes hps]

theorem tokens_nil : tokens [] = .ok [] := tokens_eq .nil .nil

theorem tokens_cut {a b : List UInt8} {toks : List (List UInt8)} (ht : tokens (a ++ b) = .ok toks)
    (hcut : CutAt toks a.length) : ∃ ta tb, tokens a = .ok ta ∧ tokens b = .ok tb ∧ toks = ta ++ tb := by
  obtain ⟨k, hk⟩ := hcut
  obtain ⟨h1, h2⟩ := flatten_take_length_inj (tokens_flatten ht) rfl k hk
  obtain ⟨h3, h4⟩ := tokens_split_at ht k
  exact ⟨toks.take k, toks.drop k, by rw [h1]; exact h3, by rw [h2]; exact h4, (List.take_append_drop k toks).symm⟩

/-- Tokens of a prefix that are followed by at least one more piece of the prefix stay. -/
theorem append_tokens {a b : List UInt8} {pa pb : List Piece} (ha : Pieces a pa) (hab : Pieces (a ++ b) (pa ++ pb))
    {toks toks' : List (List UInt8)} (ht : tokens a = .ok toks) (ht' : tokens (a ++ b) = .ok toks') :
    toks.dropLast <+: toks' := by
  have hfl := tokens_flatten ht
  rcases List.eq_nil_or_concat toks with rfl | ⟨init, t, rfl⟩
  · exact List.nil_prefix
  · rw [List.concat_eq_append] at *
    rw [List.dropLast_concat]
    rw [List.flatten_append] at hfl
    have hsp := (tokens_split_at ht init.length).1
    rw [List.take_left] at hsp
    by_cases hi : init = []
    · rw [hi]; exact List.nil_prefix
    · -- a cut of `a`
      obtain ⟨segs, hs, he⟩ := clusters_of_tokens ha ht
      have hcut : CutAt (init ++ [t]) init.flatten.length := ⟨init.length, by rw [List.take_left]⟩
      obtain ⟨before, after, e1, e2⟩ := cutAt_only_pieces ha ht hcut
      have hseg := clusters_segmentation hs
      have hne : ∀ s ∈ init ++ [t], s ≠ [] := by
        intro s hm
        rw [he] at hm
        obtain ⟨c, hc, rfl⟩ := List.mem_map.mp hm
        have h1 := hseg.nonempty c hc
        have h2 := piecesBytes_length_pos (ps := c) (fun p hp => pieces_ne_nil ha p (by
          rw [← hseg.concat]; exact List.mem_flatten.mpr ⟨c, hc, hp⟩)) h1
        intro h0
        rw [h0] at h2
        exact absurd h2 (by simp)
      have hlenI : 0 < init.flatten.length := by
        obtain ⟨s, r, rfl⟩ : ∃ s r, init = s :: r := by cases init with
          | nil => exact absurd rfl hi
          | cons s r => exact ⟨s, r, rfl⟩
        have := List.length_pos_iff.mpr (hne s (by simp))
        rw [List.flatten_cons, List.length_append]
        omega
      have hbne : before ≠ [] := by
        intro h0
        rw [h0] at e2
        simp only [piecesBytes, List.flatMap_nil, List.length_nil] at e2
        omega
      have hane : after ≠ [] := by
        intro h0
        rw [h0, List.append_nil] at e1
        have h1 := congrArg List.length hfl
        rw [← e1, pieces_bytes ha] at e2
        have := List.length_pos_iff.mpr (hne t (by simp))
        simp only [List.length_append, List.flatten_cons, List.flatten_nil, List.append_nil] at h1
        omega
      rw [e1] at ha hab
      rw [e2] at hcut
      have hpb := (cutAt_pieces ha ht hbne hane).mp hcut
      obtain ⟨p, after', rfl⟩ : ∃ p after', after = p :: after' := by cases after with
        | nil => exact absurd rfl hane
        | cons p r => exact ⟨p, r, rfl⟩
      rw [List.append_assoc, List.cons_append] at hab
      have hcut' := (cutAt_pieces hab ht' hbne (by simp)).mpr (pieceBoundary_head hpb)
      rw [← e2] at hcut'
      have hsplit : a ++ b = init.flatten ++ (t ++ b) := by
        rw [← hfl]; simp
      rw [hsplit] at ht'
      obtain ⟨ta, tb, g1, _, g3⟩ := tokens_cut ht' hcut'
      rw [hsp] at g1
      cases g1
      rw [g3]
      exact List.prefix_append _ _

end Textseg
