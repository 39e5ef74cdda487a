import Verif.Proofs.GenResult
/-!
# Simulation of the compaction on a given result

Given the arrays that should result, `sim` goes through the compaction with the numbers of the blocks only. If it succeeds,
the compaction gives these arrays.
-/

namespace Textseg.Gen
open Textseg Spec

structure SimSt where
  np : Nat
  ni : Nat
  pP : List Nat
  pI : List Nat
  iP : List Nat
  iI : List Nat
  done : List Nat

def SimSt.p (s : SimSt) : Which → List Nat
  | .propMap => s.pP
  | .indexMap => s.pI

def SimSt.i (s : SimSt) : Which → List Nat
  | .propMap => s.iP
  | .indexMap => s.iI

def SimSt.addP (s : SimSt) (w : Which) (v : Nat) : SimSt :=
  match w with
  | .propMap => { s with np := Nat.succ s.np, pP := v :: s.pP }
  | .indexMap => { s with np := Nat.succ s.np, pI := v :: s.pI }

def SimSt.addI (s : SimSt) (w : Which) (v : Nat) : SimSt :=
  match w with
  | .propMap => { s with ni := Nat.succ s.ni, iP := v :: s.iP }
  | .indexMap => { s with ni := Nat.succ s.ni, iI := v :: s.iI }

def memN (a : Nat) : List Nat → Bool
  | [] => false
  | b :: l => cond (Nat.beq a b) true (memN a l)

theorem memN_iff {a : Nat} {l : List Nat} : memN a l = true ↔ a ∈ l := by
  induction l with
  | nil => simp [memN]
  | cons b l ih =>
    unfold memN
    cases h : Nat.beq a b
    · have : a ≠ b := fun e => by rw [e, Nat.beq_refl] at h; cases h
      simp [ih, this]
    · have := Nat.eq_of_beq_eq_true h
      simp [this]

/-- None of the listed blocks is `b`. -/
def freshB (f : Nat → Nat) (b : Nat) : List Nat → Bool
  | [] => true
  | u :: l => cond (Nat.beq (f u) b) false (freshB f b l)

theorem freshB_sound {f : Nat → Nat} {b : Nat} {l : List Nat} (h : freshB f b l = true) : ∀ u ∈ l, f u ≠ b := by
  induction l with
  | nil => simp
  | cons a l ih =>
    unfold freshB at h
    cases hb : Nat.beq (f a) b
    · rw [hb, cond_false] at h
      intro u hu
      rcases List.mem_cons.mp hu with rfl | hu
      · intro e; rw [e, Nat.beq_refl] at hb; cases hb
      · exact ih h u hu
    · rw [hb] at h; cases h

def bit : Which → Nat
  | .propMap => 0
  | .indexMap => 1

def code (n : Nat) (w : Which) (v : Nat) : Nat := Nat.add (Nat.mul v 64) (Nat.add (Nat.mul n 2) (bit w))

theorem code_inj {n n' w w' v v'} (h : code n w v = code n' w' v') (hn : n < 32) (hn' : n' < 32) : n = n' ∧ w = w' ∧ v = v' := by
  unfold code at h
  have h : v * 64 + (n * 2 + bit w) = v' * 64 + (n' * 2 + bit w') := h
  cases w <;> cases w' <;> simp only [bit] at h
  · exact ⟨by omega, rfl, by omega⟩
  · omega
  · omega
  · exact ⟨by omega, rfl, by omega⟩

def simFill (f : SimSt → Nat → Option SimSt) : SimSt → List Nat → Option SimSt
  | s, [] => some s
  | s, d :: ds =>
    match f s d with
    | some s => simFill f s ds
    | none => none

section
variable (pb ib : Nat → Nat) (ix : Nat → Nat)

def sim : Nat → Which → Which → SimSt → Nat → Option SimSt
  | 0, pw, _, s, v =>
    cond (memN v (s.p pw)) (some s)
      (cond (Nat.beq v s.np) (cond (freshB pb (pb v) (s.p pw)) (some (s.addP pw v)) none) none)
  | n + 1, pw, iw, s, v =>
    cond (memN (code (Nat.succ n) iw v) s.done) (some s)
      (match simFill (fun s d => sim n iw pw s (ix (Nat.add (Nat.mul 64 v) d))) s (List.range 64) with
        | none => none
        | some s =>
          cond (memN v (s.i iw)) (some { s with done := code (Nat.succ n) iw v :: s.done })
            (cond (Nat.beq v s.ni) (cond (freshB ib (ib v) (s.i iw))
              (some { s.addI iw v with done := code (Nat.succ n) iw v :: s.done }) none) none))

end

/-- The numbers in `s` describe the state `st`, whose arrays are initial parts of `P` and `I`. -/
structure R (L : List Nat → List UInt8) (P : List UInt8) (I : List UInt16) (s : SimSt) (st : CState) : Prop where
  props : st.props = P.take (64 * s.np)
  plen : st.props.length = 64 * s.np
  indices : st.indices.drop 64 = (I.take (64 * s.ni)).drop 64
  ilen : st.indices.length = 64 * s.ni
  ni1 : 1 ≤ s.ni
  pmap : ∀ w key (v : UInt16), key.length = 64 → (st.getMap w).get key = some v → v.toNat ∈ s.p w ∧ slice P v.toNat = key
  pmap' : ∀ w (v : UInt16), v.toNat ∈ s.p w → (st.getMap w).get (slice P v.toNat) = some v
  imap : ∀ w vs (v : UInt16), vs.length = 64 → (st.getMap w).get (ikey vs) = some v → v.toNat ∈ s.i w ∧ slice I v.toNat = vs
  imap' : ∀ w (v : UInt16), v.toNat ∈ s.i w → (st.getMap w).get (ikey (slice I v.toNat)) = some v
  done : ∀ n pw iw (v : UInt16), pw ≠ iw → n ≤ 2 → code n iw v.toNat ∈ s.done → ∀ p, Reads L P I n v.toNat p →
    cfind L n pw iw st p = some v

theorem cfind_congr {L} : ∀ {n pw iw st p q}, (∀ s : List Nat, s.length = n → (∀ d ∈ s, d < 64) → L (p ++ s) = L (q ++ s)) →
    cfind L n pw iw st p = cfind L n pw iw st q := by
  intro n
  induction n with
  | zero =>
    intro pw iw st p q h
    have := h [] rfl (by simp)
    simp only [List.append_nil] at this
    unfold cfind
    rw [this]
  | succ n ih =>
    intro pw iw st p q h
    have : (List.range 64).map (fun d => cfind L n iw pw st (p ++ [d])) =
        (List.range 64).map (fun d => cfind L n iw pw st (q ++ [d])) := by
      apply List.map_congr_left
      intro d hd
      refine ih (fun s hs hlt => ?_)
      have := h (d :: s) (by simp [hs]) (by
        intro x hx
        rcases List.mem_cons.mp hx with rfl | hx
        · exact List.mem_range.mp hd
        · exact hlt x hx)
      simpa using this
    unfold cfind
    rw [this]

theorem reads_same {L P I} : ∀ {n v p q}, Reads L P I n v p → Reads L P I n v q →
    ∀ s : List Nat, s.length = n → (∀ d ∈ s, d < 64) → L (p ++ s) = L (q ++ s) := by
  intro n
  induction n with
  | zero =>
    intro v p q hp hq s hs _
    have : s = [] := List.length_eq_zero_iff.mp hs
    subst this
    have hp : slice P v = L p := hp
    have hq : slice P v = L q := hq
    rw [List.append_nil, List.append_nil, ← hp, ← hq]
  | succ n ih =>
    intro v p q hp hq s hs hlt
    match s, hs with
    | d :: s, hs =>
      have hd := hlt d (List.mem_cons_self ..)
      obtain ⟨w, h1, h2⟩ := hp d hd
      obtain ⟨w', h3, h4⟩ := hq d hd
      rw [h1] at h3
      simp only [Option.some.injEq] at h3
      subst h3
      have := ih h2 h4 s (by simpa using hs) (fun x hx => hlt x (List.mem_cons_of_mem _ hx))
      simpa using this

theorem slice_length_of {α : Type} {l : List α} {v : Nat} (h : (slice l v).length = 64) : 64 * v + 64 ≤ l.length := by
  unfold slice at h
  rw [List.length_take, List.length_drop] at h
  omega

theorem take_slice {α : Type} {l : List α} {v : Nat} : l.take (64 * v) ++ slice l v = l.take (64 * (v + 1)) := by
  unfold slice
  rw [Nat.mul_add, Nat.mul_one, List.take_add]

theorem ofNat_toNat {v : UInt16} {n : Nat} (h : v.toNat = n) : UInt16.ofNat n = v := by
  rw [← h, UInt16.ofNat_toNat]

section
variable {L : List Nat → List UInt8} {P : List UInt8} {I : List UInt16} {pb ib ix : Nat → Nat}

theorem r_addLeaf (hL : ∀ p, (L p).length = 64) (hpb : ∀ u v, slice P u = slice P v → (slice P v).length = 64 → pb u = pb v)
    {s st v p s'} {pw iw : Which} (hr : R L P I s st) (hv : slice P v.toNat = L p)
    (hs : sim pb ib ix 0 pw iw s v.toNat = some s') :
    ∃ st', addLeaf pw st (L p) = (st', v) ∧ R L P I s' st' := by
  unfold sim at hs
  cases h1 : memN v.toNat (s.p pw)
  · rw [h1, cond_false] at hs
    cases h2 : Nat.beq v.toNat s.np
    · rw [h2, cond_false] at hs; exact absurd hs (by simp)
    · rw [h2, cond_true] at hs
      cases h3 : freshB pb (pb v.toNat) (s.p pw)
      · rw [h3, cond_false] at hs; exact absurd hs (by simp)
      · rw [h3, cond_true] at hs
        simp only [Option.some.injEq] at hs
        have hnp := Nat.eq_of_beq_eq_true h2
        have hfr := freshB_sound h3
        have hlen : (slice P v.toNat).length = 64 := by rw [hv, hL]
        have hnone : (st.getMap pw).get (L p) = none := by
          cases hg : (st.getMap pw).get (L p) with
          | none => rfl
          | some u =>
            obtain ⟨e1, e2⟩ := hr.pmap _ _ _ (hL p) hg
            exact absurd (hpb _ _ (e2.trans hv.symm) hlen) (hfr _ e1)
        have hidx : UInt16.ofNat (st.props.length >>> 6) = v := by
          rw [hr.plen, shr6]; exact ofNat_toNat hnp
        have hadd : addLeaf pw st (L p) = (({ st with props := st.props ++ L p }).putMap pw (L p) v, v) := by
          unfold addLeaf
          rw [hnone]
          simp only [hidx]
        refine ⟨_, hadd, ?_⟩
        have hext : Ext st (({ st with props := st.props ++ L p }).putMap pw (L p) v) :=
          ext_putMap (fun w => by cases w <;> rfl) hnone v
        have e1 : (({ st with props := st.props ++ L p }).putMap pw (L p) v).props = st.props ++ L p := by cases pw <;> rfl
        have e2 : (({ st with props := st.props ++ L p }).putMap pw (L p) v).indices = st.indices := by cases pw <;> rfl
        have hs1 : s'.np = s.np + 1 := by rw [← hs]; cases pw <;> rfl
        have hs2 : s'.ni = s.ni := by rw [← hs]; cases pw <;> rfl
        have hs3 : ∀ w u, u ∈ s'.p w ↔ (w = pw ∧ u = v.toNat) ∨ u ∈ s.p w := by
          intro w u
          rw [← hs]
          cases pw <;> cases w <;> simp [SimSt.addP, SimSt.p]
        have hs4 : ∀ w, s'.i w = s.i w := by
          intro w; rw [← hs]; cases pw <;> cases w <;> rfl
        have hs5 : s'.done = s.done := by rw [← hs]; cases pw <;> rfl
        refine ⟨?_, ?_, ?_, ?_, ?_, ?_, ?_, ?_, ?_, ?_⟩
        · rw [e1, hs1, hr.props, ← hv, hnp, take_slice]
        · rw [e1, hs1, List.length_append, hr.plen, hL]; omega
        · rw [e2, hs2]; exact hr.indices
        · rw [e2, hs2]; exact hr.ilen
        · rw [hs2]; exact hr.ni1
        · intro w key u hk hg
          rw [getMap_putMap] at hg
          rw [hs3]
          split at hg
          · next hc =>
            simp only [Option.some.injEq] at hg
            subst hg
            exact ⟨.inl ⟨hc.1, rfl⟩, by rw [hc.2]; exact hv⟩
          · have : (st.getMap w).get key = some u := by cases w <;> exact hg
            obtain ⟨a, b⟩ := hr.pmap _ _ _ hk this
            exact ⟨.inr a, b⟩
        · intro w u hu
          rw [hs3] at hu
          rcases hu with ⟨h4, h5⟩ | hu
          · rw [h5, getMap_putMap, if_pos ⟨h4, hv⟩]
            rw [UInt16.toNat_inj.mp h5]
          · exact hext _ _ _ (hr.pmap' w u hu)
        · intro w vs u hvs hg
          rw [getMap_putMap] at hg
          rw [hs4]
          split at hg
          · next hc =>
            have := congrArg List.length hc.2
            rw [ikey_length, hvs, hL] at this
            omega
          · have : (st.getMap w).get (ikey vs) = some u := by cases w <;> exact hg
            exact hr.imap _ _ _ hvs this
        · intro w u hu
          rw [hs4] at hu
          exact hext _ _ _ (hr.imap' w u hu)
        · intro n pw' iw' u hne hn hd q hq
          rw [hs5] at hd
          exact cfind_mono hext (hr.done n pw' iw' u hne hn hd q hq)
  · rw [h1, cond_true] at hs
    simp only [Option.some.injEq] at hs
    subst hs
    refine ⟨st, ?_, hr⟩
    unfold addLeaf
    rw [← hv, hr.pmap' pw v (memN_iff.mp h1)]

theorem r_addIndex (hib : ∀ u v, slice I u = slice I v → (slice I v).length = 64 → ib u = ib v)
    {s st} {v : UInt16} {s'} {w : Which} {vs : List UInt16} (hr : R L P I s st) (hv : slice I v.toNat = vs) (hvs : vs.length = 64)
    (hs : cond (memN v.toNat (s.i w)) (some s)
            (cond (Nat.beq v.toNat s.ni) (cond (freshB ib (ib v.toNat) (s.i w)) (some (s.addI w v.toNat)) none) none) = some s') :
    ∃ st', addIndex w st vs = (st', v) ∧ R L P I s' st' := by
  cases h1 : memN v.toNat (s.i w)
  · rw [h1, cond_false] at hs
    cases h2 : Nat.beq v.toNat s.ni
    · rw [h2, cond_false] at hs; exact absurd hs (by simp)
    · rw [h2, cond_true] at hs
      cases h3 : freshB ib (ib v.toNat) (s.i w)
      · rw [h3, cond_false] at hs; exact absurd hs (by simp)
      · rw [h3, cond_true] at hs
        simp only [Option.some.injEq] at hs
        have hni := Nat.eq_of_beq_eq_true h2
        have hfr := freshB_sound h3
        have hlen : (slice I v.toNat).length = 64 := by rw [hv, hvs]
        have hnone : (st.getMap w).get (ikey vs) = none := by
          cases hg : (st.getMap w).get (ikey vs) with
          | none => rfl
          | some u =>
            obtain ⟨e1, e2⟩ := hr.imap _ _ _ hvs hg
            exact absurd (hib _ _ (e2.trans hv.symm) hlen) (hfr _ e1)
        have hidx : UInt16.ofNat (st.indices.length >>> 6) = v := by
          rw [hr.ilen, shr6]; exact ofNat_toNat hni
        have hadd : addIndex w st vs = ((st.appendIndices vs).putMap w (ikey vs) v, v) := by
          unfold addIndex
          rw [hnone]
          simp only [hidx]
        refine ⟨_, hadd, ?_⟩
        have hext : Ext st ((st.appendIndices vs).putMap w (ikey vs) v) :=
          ext_putMap (fun w => by cases w <;> rfl) hnone v
        have e1 : ((st.appendIndices vs).putMap w (ikey vs) v).props = st.props := by cases w <;> rfl
        have e2 : ((st.appendIndices vs).putMap w (ikey vs) v).indices = st.indices ++ vs := by cases w <;> rfl
        have hs1 : s'.np = s.np := by rw [← hs]; cases w <;> rfl
        have hs2 : s'.ni = s.ni + 1 := by rw [← hs]; cases w <;> rfl
        have hs3 : ∀ w' u, u ∈ s'.i w' ↔ (w' = w ∧ u = v.toNat) ∨ u ∈ s.i w' := by
          intro w' u
          rw [← hs]
          cases w <;> cases w' <;> simp [SimSt.addI, SimSt.i]
        have hs4 : ∀ w', s'.p w' = s.p w' := by
          intro w'; rw [← hs]; cases w <;> cases w' <;> rfl
        have hs5 : s'.done = s.done := by rw [← hs]; cases w <;> rfl
        have hni1 := hr.ni1
        have hIl := slice_length_of hlen
        refine ⟨?_, ?_, ?_, ?_, ?_, ?_, ?_, ?_, ?_, ?_⟩
        · rw [e1, hs1]; exact hr.props
        · rw [e1, hs1]; exact hr.plen
        · rw [e2, hs2, List.drop_append_of_le_length (by rw [hr.ilen]; omega), hr.indices, ← take_slice, ← hni, hv,
            List.drop_append_of_le_length (by rw [List.length_take]; omega)]
        · rw [e2, hs2, List.length_append, hr.ilen, hvs]; omega
        · rw [hs2]; omega
        · intro w' key u hk hg
          rw [getMap_putMap] at hg
          rw [hs4]
          split at hg
          · next hc =>
            have := congrArg List.length hc.2
            rw [ikey_length, hvs, hk] at this
            omega
          · have : (st.getMap w').get key = some u := by cases w' <;> exact hg
            exact hr.pmap _ _ _ hk this
        · intro w' u hu
          rw [hs4] at hu
          exact hext _ _ _ (hr.pmap' w' u hu)
        · intro w' vs' u hvs' hg
          rw [getMap_putMap] at hg
          rw [hs3]
          split at hg
          · next hc =>
            simp only [Option.some.injEq] at hg
            subst hg
            exact ⟨.inl ⟨hc.1, rfl⟩, by rw [ikey_inj hc.2]; exact hv⟩
          · have : (st.getMap w').get (ikey vs') = some u := by cases w' <;> exact hg
            obtain ⟨a, b⟩ := hr.imap _ _ _ hvs' this
            exact ⟨.inr a, b⟩
        · intro w' u hu
          rw [hs3] at hu
          rcases hu with ⟨h4, h5⟩ | hu
          · rw [h5, hv, getMap_putMap, if_pos ⟨h4, rfl⟩]
            rw [UInt16.toNat_inj.mp h5]
          · exact hext _ _ _ (hr.imap' w' u hu)
        · intro n pw' iw' u hne hn hd q hq
          rw [hs5] at hd
          exact cfind_mono hext (hr.done n pw' iw' u hne hn hd q hq)
  · rw [h1, cond_true] at hs
    simp only [Option.some.injEq] at hs
    subst hs
    refine ⟨st, ?_, hr⟩
    unfold addIndex
    rw [← hv, hr.imap' w v (memN_iff.mp h1)]

theorem r_done {s st} {n : Nat} {pw iw : Which} {v : UInt16} {p} (hr : R L P I s st) (hne : pw ≠ iw) (hn : n < 32)
    (hp : Reads L P I n v.toNat p) (hf : cfind L n pw iw st p = some v) :
    R L P I { s with done := code n iw v.toNat :: s.done } st := by
  refine ⟨hr.props, hr.plen, hr.indices, hr.ilen, hr.ni1, hr.pmap, hr.pmap', hr.imap, hr.imap', ?_⟩
  intro n' pw' iw' u hne' hn' hd q hq
  rcases List.mem_cons.mp hd with h | h
  · obtain ⟨h1, h2, h3⟩ := code_inj h (by omega) hn
    have h3 := UInt16.toNat_inj.mp h3
    subst h1 h2 h3
    have : pw' = pw := by cases pw <;> cases pw' <;> cases iw' <;> simp_all
    subst this
    rw [cfind_congr (reads_same hq hp)]
    exact hf
  · exact hr.done n' pw' iw' u hne' hn' h q hq

theorem sim_step (hL : ∀ p, (L p).length = 64) (hpb : ∀ u v, slice P u = slice P v → (slice P v).length = 64 → pb u = pb v)
    (hib : ∀ u v, slice I u = slice I v → (slice I v).length = 64 → ib u = ib v)
    (hix : ∀ i (w : UInt16), I[i]? = some w → ix i = w.toNat) : ∀ (n : Nat) (pw iw : Which) (s : SimSt) (v : UInt16) (st : CState)
    (p : List Nat) (s' : SimSt), n ≤ 2 → pw ≠ iw → R L P I s st → Reads L P I n v.toNat p →
    sim pb ib ix n pw iw s v.toNat = some s' → ∃ st', cbuild L n pw iw st p = (st', v) ∧ R L P I s' st' := by
  intro n
  induction n with
  | zero =>
    intro pw iw s v st p s' _ _ hr hp hs
    exact r_addLeaf hL hpb hr hp hs
  | succ n ih =>
    intro pw iw s v st p s' hn hne hr hp hs
    rw [sim] at hs
    cases h1 : memN (code (Nat.succ n) iw v.toNat) s.done
    · rw [h1, cond_false] at hs
      have key : ∀ (ds : List Nat) (s : SimSt) (st : CState) (s' : SimSt), (∀ d ∈ ds, d < 64) → R L P I s st →
          simFill (fun s d => sim pb ib ix n iw pw s (ix (Nat.add (Nat.mul 64 v.toNat) d))) s ds = some s' →
          ∃ st' vs, cfill (fun st d => cbuild L n iw pw st (p ++ [d])) st ds = (st', vs) ∧ R L P I s' st' ∧
            vs.map some = ds.map fun d => I[64 * v.toNat + d]? := by
        intro ds
        induction ds with
        | nil =>
          intro s st s' _ hr hs
          simp only [simFill, Option.some.injEq] at hs
          subst hs
          exact ⟨st, [], rfl, hr, rfl⟩
        | cons d ds ihd =>
          intro s st s' hd hr hs
          unfold simFill at hs
          obtain ⟨w, hw, hpw⟩ := hp d (hd d (List.mem_cons_self ..))
          have e : ix (Nat.add (Nat.mul 64 v.toNat) d) = w.toNat := hix _ _ hw
          simp only [e] at hs
          cases h2 : sim pb ib ix n iw pw s w.toNat with
          | none => rw [h2] at hs; exact absurd hs (by simp)
          | some s1 =>
            rw [h2] at hs
            simp only at hs
            obtain ⟨st1, hb1, hr1⟩ := ih iw pw s w st (p ++ [d]) s1 (by omega) (Ne.symm hne) hr hpw h2
            obtain ⟨st2, vs, hb2, hr2, hvs⟩ := ihd s1 st1 s' (fun x hx => hd x (List.mem_cons_of_mem _ hx)) hr1 hs
            refine ⟨st2, w :: vs, ?_, hr2, ?_⟩
            · simp only [cfill, hb1, hb2]
            · simp only [List.map_cons, hvs, hw]
      cases h2 : simFill (fun s d => sim pb ib ix n iw pw s (ix (Nat.add (Nat.mul 64 v.toNat) d))) s (List.range 64) with
      | none => rw [h2] at hs; exact absurd hs (by simp)
      | some s1 =>
        rw [h2] at hs
        simp only at hs
        obtain ⟨st1, vs, hb, hr1, hvs⟩ := key _ _ _ _ (fun d hd => List.mem_range.mp hd) hr h2
        have hvl : vs.length = 64 := by
          have := congrArg List.length hvs
          simpa using this
        have hsl : slice I v.toNat = vs := by
          apply List.ext_getElem?
          intro d
          by_cases hd : d < 64
          · rw [slice_get hd]
            have := congrArg (·[d]?) hvs
            simp only [List.getElem?_map, List.getElem?_range hd, Option.map_some] at this
            rw [List.getElem?_eq_getElem (by omega : d < vs.length)] at this ⊢
            simp only [Option.map_some, Option.some.injEq] at this
            exact this.symm
          · rw [List.getElem?_eq_none (by unfold slice; rw [List.length_take]; omega), List.getElem?_eq_none (by omega)]
        have hcb : ∀ st2, addIndex iw st1 vs = (st2, v) → cbuild L (n + 1) pw iw st p = (st2, v) := by
          intro st2 h
          unfold cbuild
          rw [hb]
          exact h
        obtain ⟨s2, hs2, hs'⟩ : ∃ s2, cond (memN v.toNat (s1.i iw)) (some s1)
            (cond (Nat.beq v.toNat s1.ni) (cond (freshB ib (ib v.toNat) (s1.i iw)) (some (s1.addI iw v.toNat)) none) none) = some s2 ∧
            s' = { s2 with done := code (n + 1) iw v.toNat :: s2.done } := by
          revert hs
          cases memN v.toNat (s1.i iw)
          · cases Nat.beq v.toNat s1.ni
            · intro hs; simp at hs
            · cases freshB ib (ib v.toNat) (s1.i iw)
              · intro hs; simp at hs
              · intro hs
                simp only [cond_true, cond_false, Option.some.injEq] at hs
                refine ⟨s1.addI iw v.toNat, rfl, ?_⟩
                rw [← hs]
                cases iw <;> rfl
          · intro hs
            simp only [cond_true, Option.some.injEq] at hs
            exact ⟨s1, rfl, hs.symm⟩
        obtain ⟨st2, ha, hr2⟩ := r_addIndex hib hr1 hsl hvl hs2
        refine ⟨st2, hcb st2 ha, ?_⟩
        rw [hs']
        have hfind := (cbuild_spec (L := L) (n + 1) pw iw st p).2
        rw [hcb st2 ha] at hfind
        exact r_done hr2 hne (by omega) hp hfind
    · rw [h1, cond_true] at hs
      simp only [Option.some.injEq] at hs
      subst hs
      have := hr.done (n + 1) pw iw v hne hn (memN_iff.mp h1) p hp
      exact ⟨st, cbuild_found this, hr⟩

/-- The loop over the root block. -/
def simRoot (pb ib ix : Nat → Nat) : List Nat → SimSt → Option SimSt
  | [], s => some s
  | i :: is, s =>
    match sim pb ib ix (lev i) .indexMap .propMap s (ix i) with
    | some s => simRoot pb ib ix is s
    | none => none

theorem cbuild_rootEq {L} (n pw iw st p) : (cbuild L n pw iw st p).1.root = st.root := by
  refine cbuild_pres (P := fun st' => st'.root = st.root) ?_ ?_ n pw iw st p rfl
  · intro w st' p h
    unfold addLeaf
    split
    · exact h
    · cases w <;> exact h
  · intro w st' block _ h
    unfold addIndex
    split
    · exact h
    · cases w <;> exact h

theorem r_setRoot {s st} (hr : R L P I s st) {i : Nat} (hi : i < 64) (v : UInt16) : R L P I s (setRootP st i v) := by
  have hm : ∀ w, (setRootP st i v).getMap w = st.getMap w := getMap_setRootP st i v
  refine ⟨hr.props, hr.plen, ?_, by rw [setRootP_ilen]; exact hr.ilen, hr.ni1, ?_, ?_, ?_, ?_, ?_⟩
  · rw [← hr.indices]
    unfold setRootP
    simp only
    split
    · rw [List.drop_set_of_lt (by omega)]
    · rfl
  · intro w; rw [hm]; exact hr.pmap w
  · intro w; rw [hm]; exact hr.pmap' w
  · intro w; rw [hm]; exact hr.imap w
  · intro w; rw [hm]; exact hr.imap' w
  · intro n pw iw u hne hn hd p hp
    exact cfind_mono (ext_setRootP st i v) (hr.done n pw iw u hne hn hd p hp)

theorem simRoot_spec (hL : ∀ p, (L p).length = 64) (hpb : ∀ u v, slice P u = slice P v → (slice P v).length = 64 → pb u = pb v)
    (hib : ∀ u v, slice I u = slice I v → (slice I v).length = 64 → ib u = ib v)
    (hix : ∀ i (w : UInt16), I[i]? = some w → ix i = w.toNat)
    (hroot : ∀ i, i < 64 → ∃ w : UInt16, I[i]? = some w ∧ Reads L P I (lev i) w.toNat [i]) :
    ∀ (n i : Nat) (s : SimSt) (st : CState) (s' : SimSt), i + n ≤ 64 → R L P I s st → st.root.length = 64 →
    (∀ j, j < i → st.root[j]? = I[j]?) → simRoot pb ib ix (List.range' i n) s = some s' →
    R L P I s' (croot L (List.range' i n) st) ∧ ∀ j, j < i + n → (croot L (List.range' i n) st).root[j]? = I[j]? := by
  intro n
  induction n with
  | zero =>
    intro i s st s' _ hr _ hj hs
    simp only [List.range'_zero, simRoot, Option.some.injEq] at hs
    subst hs
    exact ⟨hr, hj⟩
  | succ n ih =>
    intro i s st s' hin hr hrl hj hs
    rw [List.range'_succ] at hs ⊢
    unfold simRoot at hs
    obtain ⟨w, hw, hrd⟩ := hroot i (by omega)
    rw [hix _ _ hw] at hs
    cases h1 : sim pb ib ix (lev i) .indexMap .propMap s w.toNat with
    | none => rw [h1] at hs; exact absurd hs (by simp)
    | some s1 =>
      rw [h1] at hs
      simp only at hs
      obtain ⟨st1, hb, hr1⟩ := sim_step hL hpb hib hix (lev i) .indexMap .propMap s w st [i] s1 (lev_le i) (by decide) hr hrd h1
      have hre := cbuild_rootEq (L := L) (lev i) .indexMap .propMap st [i]
      rw [hb] at hre
      have hre : st1.root = st.root := hre
      unfold croot
      rw [hb]
      have := ih (i + 1) s1 (setRootP st1 i w) s' (by omega) (r_setRoot hr1 (by omega) w)
        (by simp [setRootP, hre, hrl]) (by
          intro j hj'
          show (st1.root.set i w)[j]? = _
          rw [hre, List.getElem?_set]
          by_cases hji : i = j
          · rw [if_pos hji, if_pos (by omega), ← hji, hw]
          · rw [if_neg hji]; exact hj j (by omega)) hs
      rw [show i + 1 + n = i + (n + 1) by omega] at this
      exact this

theorem sim_final {F : Nat → UInt8} {cap : Nat} (hf : Final F (cfinal F cap))
    (hpb : ∀ u v, slice P u = slice P v → (slice P v).length = 64 → pb u = pb v)
    (hib : ∀ u v, slice I u = slice I v → (slice I v).length = 64 → ib u = ib v)
    (hix : ∀ i (w : UInt16), I[i]? = some w → ix i = w.toNat)
    (hroot : ∀ i, i < 64 → ∃ w : UInt16, I[i]? = some w ∧ Reads (leafF F) P I (lev i) w.toNat [i])
    (h0 : slice P 0 = blockF F 0) (h1 : slice P 1 = blockF F 1) (hne : pb 0 ≠ pb 1)
    {s' : SimSt} (hs : simRoot pb ib ix (List.range 64) ⟨2, 1, [1, 0], [], [], [], []⟩ = some s') (hp : P.length = 64 * s'.np)
    (hi : I.length = 64 * s'.ni) :
    (cfinal F cap).props = P ∧ (cfinal F cap).indices = I := by
  have hP : 128 ≤ P.length := by
    have := slice_length_of (l := P) (v := 1) (by rw [h1, blockF_length])
    omega
  have e01 : P.take 128 = blockF F 0 ++ blockF F 1 := by
    rw [← h0, ← h1]
    have := take_slice (l := P) (v := 0)
    have h2 := take_slice (l := P) (v := 1)
    simp only [Nat.mul_zero, List.take_zero, List.nil_append, Nat.zero_add] at this
    rw [← this] at h2
    exact h2.symm
  have hinit : R (leafF F) P I ⟨2, 1, [1, 0], [], [], [], []⟩ (cinit F cap) := by
    have hb : blockF F 0 ≠ blockF F 1 := by
      intro e
      rw [← h0, ← h1] at e
      exact hne (hpb 0 1 e (by rw [h1, blockF_length]))
    refine ⟨e01.symm, ?_, ?_, ?_, by decide, ?_, ?_, ?_, ?_, ?_⟩
    · simp [cinit, blockF_length]
    · show (List.replicate 64 (0 : UInt16)).drop 64 = (I.take (64 * 1)).drop 64
      rw [List.drop_of_length_le (by simp), List.drop_of_length_le (by rw [List.length_take]; omega)]
    · simp [cinit]
    · intro w key v _ hg
      obtain ⟨rfl, h⟩ := cinit_get F cap w key v hg
      rcases h with ⟨h2, h3⟩ | ⟨h2, h3, _⟩ <;> subst h2 h3
      · exact ⟨by decide, h1⟩
      · exact ⟨by decide, h0⟩
    · intro w v hv
      cases w with
      | indexMap => exact absurd hv (by simp [SimSt.p])
      | propMap =>
        have hv : v.toNat = 1 ∨ v.toNat = 0 := by simpa [SimSt.p] using hv
        rcases hv with hv | hv
        · have : v = 1 := UInt16.toNat_inj.mp hv
          subst this
          show ((cinit F cap).getMap .propMap).get (slice P 1) = some 1
          rw [h1]
          simp [cinit, CState.getMap, get_put]
        · have : v = 0 := UInt16.toNat_inj.mp hv
          subst this
          show ((cinit F cap).getMap .propMap).get (slice P 0) = some 0
          rw [h0]
          simp only [cinit, CState.getMap, get_put]
          rw [if_neg hb]
          simp
    · intro w vs v hvs hg
      obtain ⟨rfl, h⟩ := cinit_get F cap w _ v hg
      exfalso
      rcases h with ⟨h, _⟩ | ⟨h, _⟩ <;>
        (have := congrArg List.length h; rw [ikey_length, hvs, blockF_length] at this; omega)
    · intro w v hv
      cases w <;> exact absurd hv (by simp [SimSt.i])
    · intro n pw iw v _ _ hd
      exact absurd hd (by simp)
  rw [List.range_eq_range'] at hs
  obtain ⟨hr, hrt⟩ := simRoot_spec (leafF_length F) hpb hib hix hroot 64 0 _ _ s' (by omega) hinit (by simp [cinit]) (by omega) hs
  rw [← List.range_eq_range'] at hr hrt
  change R (leafF F) P I s' (cfinal F cap) at hr
  have hrt : ∀ j, j < 0 + 64 → (cfinal F cap).root[j]? = I[j]? := hrt
  generalize cfinal F cap = st at hr hrt hf
  constructor
  · rw [hr.props, ← hp, List.take_length]
  · rw [← List.take_append_drop 64 st.indices, hr.indices, ← hi, List.take_length, hf.sound.share hf.shared]
    have hrl := hf.sound.root
    have : st.root = I.take 64 := by
      apply List.ext_getElem?
      intro j
      by_cases hj : j < 64
      · rw [hrt j (by omega), List.getElem?_take, if_pos hj]
      · rw [List.getElem?_eq_none (by omega), List.getElem?_eq_none (by rw [List.length_take]; omega)]
    rw [this, List.take_append_drop]

end

end Textseg.Gen
