import Verif.Proofs.Editing
/-!
# The number of tokens of a concatenation
-/

namespace Textseg
open Spec

/-- The number of boundaries before the characters `ns`, with reversed context `R`. -/
def numBreaks : Text → Text → Nat
  | _, [] => 0
  | R, n :: ns => (if brk R n then 1 else 0) + numBreaks (n :: R) ns

/-- The number of boundaries depends only on the facts about the context. -/
theorem numBreaks_same (ns : Text) : ∀ {R R' : Text}, SameCtx R R' → numBreaks R ns = numBreaks R' ns := by
  induction ns with
  | nil => intro R R' _; rfl
  | cons n ns ih =>
    intro R R' h
    rw [numBreaks, numBreaks, h.brk n, ih (h.cons n)]

theorem numBreaks_take (cs : List Char) : ∀ (R : Text) (rest : List Piece) (rcs : List Char),
    cs.map charPiece = takeCluster R (cs.map charPiece) ++ rest → rest = rcs.map charPiece →
    ∃ R', numBreaks R (cs.map fun c => ucd c.val.toNat) = numBreaks R' (rcs.map fun c => ucd c.val.toNat) ∧
      (CtxOk R → CtxOk R') ∧ (∀ n ns, rcs.map (fun c => ucd c.val.toNat) = n :: ns → brk R' n = true) := by
  induction cs with
  | nil =>
    intro R rest rcs h hr
    simp only [List.map_nil, takeCluster, List.nil_append] at h
    subst h
    have : rcs = [] := by cases rcs with
      | nil => rfl
      | cons c rcs => simp at hr
    subst this
    exact ⟨R, rfl, id, fun n ns h => by simp at h⟩
  | cons c cs ih =>
    intro R rest rcs h hr
    rw [List.map_cons, charPiece, takeCluster, seqProps_encode] at h
    cases hb : brk R (ucd c.val.toNat)
    · rw [if_neg (by rw [hb]; exact Bool.false_ne_true), List.cons_append, List.cons.injEq] at h
      obtain ⟨R', g1, g2, g3⟩ := ih (ucd c.val.toNat :: R) rest rcs h.2 hr
      refine ⟨R', ?_, ?_, g3⟩
      · rw [List.map_cons, numBreaks, hb, if_neg (by simp), Nat.zero_add, g1]
      · intro hR
        apply g2
        intro x hx
        rcases List.mem_cons.mp hx with rfl | hx
        · exact ucd_consistent _
        · exact hR x hx
    · rw [if_pos hb, List.nil_append, ← charPiece, ← List.map_cons, hr] at h
      have hcs : rcs = c :: cs := by
        have := congrArg (List.map Piece.bytes) h
        exact ((List.map_inj_right (fun a b => charPiece_injective a b)).mp h).symm
      subst hcs
      refine ⟨R, rfl, id, ?_⟩
      intro n ns hn
      rw [List.map_cons, List.cons.injEq] at hn
      rw [← hn.1]; exact hb

/-- The number of clusters of a text. -/
theorem clusters_count {ps : List Piece} {segs : List (List Piece)} (h : Clusters ps segs) : ∀ (cs : List Char) (R : Text),
    ps = cs.map charPiece → CtxOk R → (∀ n ns, cs.map (fun c => ucd c.val.toNat) = n :: ns → brk R n = true) →
    segs.length = numBreaks R (cs.map fun c => ucd c.val.toNat) := by
  induction h with
  | nil =>
    intro cs R hp _ _
    have : cs = [] := by cases cs with
      | nil => rfl
      | cons c cs => simp at hp
    subst this
    rfl
  | cons ps rest segs hp hr hc ih =>
    intro cs R e hR hbrk
    subst e
    match cs, hp with
    | c :: cs, _ =>
      rw [List.map_cons, charPiece, firstCluster, List.cons_append, List.cons.injEq, seqProps_encode] at hr
      have hb : brk R (ucd c.val.toNat) = true := hbrk _ _ rfl
      obtain ⟨rcs, hrcs⟩ : ∃ rcs : List Char, rest = rcs.map charPiece := by
        have h2 := hr.2
        obtain ⟨l1, l2, _, _, h3⟩ := List.map_eq_append_iff.mp h2
        exact ⟨l2, h3.symm⟩
      obtain ⟨R', g1, g2, g3⟩ := numBreaks_take cs [ucd c.val.toNat] rest rcs hr.2 hrcs
      have hone : CtxOk [ucd c.val.toNat] := by
        intro x hx
        rw [List.mem_singleton] at hx
        rw [hx]; exact ucd_consistent _
      rw [List.length_cons, ih rcs R' hrcs (g2 hone) g3, List.map_cons, numBreaks, hb, if_pos rfl, Nat.add_comm, ← g1]
      congr 1
      exact (numBreaks_same (R := ucd c.val.toNat :: R) (R' := [ucd c.val.toNat]) _ ⟨rfl, flags_restart hR (ucd_consistent _) hb⟩).symm

theorem tokens_count {cs : List Char} {toks : List (List UInt8)} (ht : tokens (utf8 cs) = .ok toks) :
    toks.length = numBreaks [] (cs.map fun c => ucd c.val.toNat) := by
  obtain ⟨segs, hs, rfl⟩ := clusters_of_tokens (pieces_utf8 cs) ht
  rw [List.length_map]
  exact clusters_count hs cs [] rfl (by intro x hx; cases hx) (fun _ _ _ => rfl)

theorem numBreaks_append (a b : Text) : ∀ R, numBreaks R (a ++ b) = numBreaks R a + numBreaks (a.reverse ++ R) b := by
  induction a with
  | nil => intro R; simp [numBreaks]
  | cons n a ih => intro R; rw [List.cons_append, numBreaks, ih, numBreaks, List.reverse_cons, List.append_assoc]; simp [Nat.add_assoc]

/-- How the facts about a context and about a longer context may be related, when both contexts end in the same character;
`k` and `k'` count the boundaries so far. -/
inductive Rel (p : CharProps) (f f' : Flags) (k k' : Nat) : Prop
  | same : f = f' → k' ≤ k + 1 → k ≤ k' + 1 → Rel p f f' k k'
  | open : f.ri = f'.ri → k = k' → Rel p f f' k k'
  | flag : p.gcb = .RegionalIndicator → f.ri = !f'.ri → k' = k + (if f.ri then 0 else 1) → Rel p f f' k k'

/-- Before a character that is neither a consonant nor a pictograph only the parity of the regional indicators matters. -/
theorem breakB_ri_only {f f' : Flags} {p n : CharProps} (h : f.ri = f'.ri) (h1 : n.incb ≠ .Consonant)
    (h2 : n.extPict = false) : breakB f p n = breakB f' p n := by
  have h1' : (n.incb == .Consonant) = false := by simpa using h1
  simp only [breakB, h1', h2, h, Bool.and_false]

/-- After a consonant or a pictograph the facts do not depend on what was before. -/
theorem next_fixed {f f' : Flags} {n : CharProps} (cn : n.Consistent) (h : n.incb = .Consonant ∨ n.extPict = true) :
    f.next n = f'.next n := by
  rcases h with h | h
  · have h1 := cn.consonant h
    have h2 : n.extPict = false := by
      cases hx : n.extPict
      · rfl
      · have := (cn.pict hx).2
        rw [h] at this; cases this
    rcases f with ⟨f1, f2, f3, f4, f5⟩
    rcases f' with ⟨g1, g2, g3, g4, g5⟩
    rcases n with ⟨n1, n2, n3⟩
    dsimp only at h h1 h2
    subst h h1 h2
    rfl
  · obtain ⟨h1, h2⟩ := cn.pict h
    rcases f with ⟨f1, f2, f3, f4, f5⟩
    rcases f' with ⟨g1, g2, g3, g4, g5⟩
    rcases n with ⟨n1, n2, n3⟩
    dsimp only at h h1 h2
    subst h h1 h2
    rfl

theorem rel_step {p n : CharProps} {R R' : Text} {k k' : Nat} (hR : CtxOk (p :: R)) (hR' : CtxOk (p :: R')) (cn : n.Consistent)
    (h : Rel p (flags (p :: R)) (flags (p :: R')) k k') :
    Rel n (flags (n :: p :: R)) (flags (n :: p :: R')) (k + if brk (p :: R) n then 1 else 0)
      (k' + if brk (p :: R') n then 1 else 0) := by
  have ok := okF_flags hR
  have ok' := okF_flags hR'
  rw [brk, brk, flags, flags.eq_2 n (p :: R')]
  generalize flags (p :: R) = f at *
  generalize flags (p :: R') = f' at *
  cases h with
  | same e h1 h2 =>
    subst e
    exact .same rfl (by omega) (by omega)
  | «open» e h1 =>
    by_cases hc : n.incb = .Consonant ∨ n.extPict = true
    · refine .same (next_fixed cn hc) ?_ ?_ <;> split <;> split <;> omega
    · have hb := breakB_ri_only (p := p) e (n := n) (fun h => hc (Or.inl h)) (by
        cases hx : n.extPict
        · rfl
        · exact absurd (Or.inr hx) hc)
      rw [hb]
      exact .open (by simp only [Flags.next, e]) (by omega)
  | flag hp e h1 =>
    by_cases hn : n.gcb = .RegionalIndicator
    · rw [breakB_ri f cn hp hn, breakB_ri f' cn hp hn]
      refine .flag hn ?_ ?_
      · simp only [Flags.next, hn, beq_self_eq_true, Bool.true_and, e, Bool.not_not]
      · simp only [Flags.next, hn, beq_self_eq_true, Bool.true_and]
        rw [e] at h1 ⊢
        cases hf : f'.ri <;> rw [hf] at h1 <;> simp at h1 ⊢ <;> omega
    · have pj : p.incb ≠ .Extend ∧ p.incb ≠ .Linker ∧ p.incb ≠ .Consonant ∧ p.extPict = false := by
        have cp := hR p (by simp)
        refine ⟨fun h => ?_, fun h => ?_, fun h => ?_, ?_⟩
        · rcases cp.joiner (Or.inl h) with h | h <;> rw [hp] at h <;> cases h
        · rcases cp.joiner (Or.inr h) with h | h <;> rw [hp] at h <;> cases h
        · have := cp.consonant h; rw [hp] at this; cases this
        · cases hx : p.extPict
          · rfl
          · have := (cp.pict hx).1; rw [hp] at this; cases this
      have clear : ∀ g : Flags, okF g p = true → g.emo = false ∧ g.emoZ = false ∧ g.con = false ∧ g.lnk = false := by
        intro g hg
        obtain ⟨p1, p2, p3, p4⟩ := pj
        rcases g with ⟨g1, g2, g3, g4, g5⟩
        cases g1 <;> cases g2 <;> cases g3 <;> cases g4 <;> simp_all [okF, joiner]
      obtain ⟨a1, a2, a3, a4⟩ := clear f ok
      obtain ⟨b1, b2, b3, b4⟩ := clear f' ok'
      have hn' : (n.gcb == .RegionalIndicator) = false := by simpa using hn
      have hb : breakB f p n = breakB f' p n := by
        simp only [breakB, a2, a4, b2, b4, hn', Bool.and_false, Bool.false_and]
      rw [hb]
      refine .same ?_ ?_ ?_
      · simp only [Flags.next, a1, a3, a4, b1, b3, b4, hn', Bool.and_false, Bool.false_and]
      · split at h1 <;> omega
      · split at h1 <;> omega

theorem rel_run (ns : Text) : ∀ {p : CharProps} {R R' : Text} {k k' : Nat}, CtxOk (p :: R) → CtxOk (p :: R') →
    (∀ n ∈ ns, n.Consistent) → Rel p (flags (p :: R)) (flags (p :: R')) k k' →
    k' + numBreaks (p :: R') ns ≤ k + numBreaks (p :: R) ns + 1 ∧ k + numBreaks (p :: R) ns ≤ k' + numBreaks (p :: R') ns + 1 := by
  induction ns with
  | nil =>
    intro p R R' k k' _ _ _ h
    simp only [numBreaks, Nat.add_zero]
    cases h with
    | same _ h1 h2 => exact ⟨h1, h2⟩
    | «open» _ h1 => omega
    | flag _ _ h1 => split at h1 <;> omega
  | cons n ns ih =>
    intro p R R' k k' hR hR' hns h
    have cn := hns n (by simp)
    have hs := rel_step hR hR' cn h
    have g : ∀ {S : Text}, CtxOk (p :: S) → CtxOk (n :: p :: S) := by
      intro S hS x hx
      rcases List.mem_cons.mp hx with rfl | hx
      · exact cn
      · exact hS x hx
    have := ih (g hR) (g hR') (fun m hm => hns m (by simp [hm])) hs
    rw [numBreaks, numBreaks]
    omega

/-- The boundaries in `b` with and without the text `a` before it. -/
theorem numBreaks_context {a b : Text} (ha : CtxOk a) (hb : ∀ n ∈ b, n.Consistent) :
    numBreaks a b ≤ numBreaks [] b ∧ numBreaks [] b ≤ numBreaks a b + 2 := by
  cases b with
  | nil => simp [numBreaks]
  | cons n b =>
    have cn := hb n (by simp)
    have hone : CtxOk [n] := by
      intro x hx
      rw [List.mem_singleton] at hx
      rw [hx]; exact cn
    have hcons : CtxOk (n :: a) := by
      intro x hx
      rcases List.mem_cons.mp hx with rfl | hx
      · exact cn
      · exact ha x hx
    rw [numBreaks, numBreaks]
    cases hbr : brk a n
    · simp only [brk, if_true, Bool.false_eq_true, if_false]
      have h : Rel n (flags [n]) (flags (n :: a)) 0 0 := by
        by_cases e : (flags [n]).ri = (flags (n :: a)).ri
        · exact .open e rfl
        · have e1 : (flags [n]).ri = (n.gcb == .RegionalIndicator && !false) := rfl
          have e2 : (flags (n :: a)).ri = (n.gcb == .RegionalIndicator && !(flags a).ri) := rfl
          have hn : n.gcb = .RegionalIndicator := by
            refine Classical.byContradiction fun h => e ?_
            have : (n.gcb == .RegionalIndicator) = false := by simpa using h
            rw [e1, e2, this]; rfl
          refine .flag hn ?_ ?_
          · cases h1 : (flags [n]).ri <;> cases h2 : (flags (n :: a)).ri <;> simp_all
          · rw [e1, hn]; rfl
      have := rel_run b hone hcons (fun m hm => hb m (by simp [hm])) h
      omega
    · have hs : SameCtx (n :: a) [n] := ⟨rfl, flags_restart ha cn hbr⟩
      rw [numBreaks_same b hs]
      simp [brk]

end Textseg
