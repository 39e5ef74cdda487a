import Verif.Proofs.Scan
import Verif.Model.Concurrent
/-!
# Single accesses: calls alone, calls under interference
-/

namespace Textseg
open Spec

variable {α β : Type}

theorem Proc.bind_eq (p : Proc α) (f : α → Proc β) : (p >>= f) = p.bind f := rfl

/-! ## A call alone: the same as the functions of `Model/Scan.lean` -/

/-- The result of a goroutine that only reads and that nobody disturbs. -/
def Proc.eval (mem : Memory) : Proc α → Go α
  | .ret r => r
  | .read a k => (k (mem a)).eval mem
  | .write _ _ k => k.eval mem

theorem Proc.eval_bind (mem : Memory) (p : Proc α) (f : α → Proc β) :
    (p >>= f).eval mem = p.eval mem >>= fun v => (f v).eval mem := by
  rw [Proc.bind_eq]
  induction p with
  | ret r => cases r <;> rfl
  | read a k ih => simp only [Proc.bind, Proc.eval]; exact ih _
  | write a b k ih => simp only [Proc.bind, Proc.eval]; exact ih

theorem Slice.length_bytes (s : Slice) (mem : Memory) : (s.bytes mem).length = s.len := by simp [Slice.bytes]

theorem Slice.eval_index (s : Slice) (mem : Memory) (i : Nat) :
    (s.index i).eval mem = goIndex (s.bytes mem) i := by
  unfold Slice.index goIndex Slice.bytes
  by_cases h : i < s.len
  · simp [h, Proc.eval]
  · simp [h, Proc.eval]

theorem Slice.bytes_from (s : Slice) (mem : Memory) (lo : Nat) :
    (Slice.mk (s.base + lo) (s.len - lo)).bytes mem = (s.bytes mem).drop lo := by
  apply List.ext_getElem
  · simp [Slice.bytes]
  · intro i h1 h2
    simp [Slice.bytes, Nat.add_assoc]

theorem Slice.bytes_to (s : Slice) (mem : Memory) (hi : Nat) (h : hi ≤ s.len) :
    (Slice.mk s.base hi).bytes mem = (s.bytes mem).take hi := by
  apply List.ext_getElem
  · simp [Slice.bytes, h]
  · intro i h1 h2
    simp [Slice.bytes]

theorem eval_continuationLoopT (p : Slice) (mem : Memory) :
    ∀ n i, (continuationLoopT p i n).eval mem = continuationLoop (p.bytes mem) i n := by
  intro n
  induction n with
  | zero => intro i; rfl
  | succ n ih =>
    intro i
    rw [continuationLoopT, continuationLoop, Proc.eval_bind, Slice.eval_index]
    congr 1
    funext b
    split
    · rfl
    · exact ih _

theorem eval_lookupSwitchT (p : Slice) (mem : Memory) (first : UInt8) (n : Nat) :
    (lookupSwitchT p first n).eval mem = lookupSwitch (p.bytes mem) first n := by
  unfold lookupSwitchT lookupSwitch lookupSwitchIn
  repeat' split
  all_goals simp only [Proc.eval_bind, Slice.eval_index, Proc.eval]

theorem eval_LookupFirstCharT (p : Slice) (mem : Memory) :
    (LookupFirstCharT p).eval mem = LookupFirstChar (p.bytes mem) := by
  unfold LookupFirstCharT LookupFirstChar LookupFirstCharIn
  have hl := p.length_bytes mem
  by_cases h : p.len = 0
  · rw [if_pos (by simp [h])]
    have : p.bytes mem = [] := List.eq_nil_of_length_eq_zero (hl.trans h)
    rw [this]; rfl
  · rw [if_neg (by simp [h]), Proc.eval_bind, Slice.eval_index]
    cases hb : p.bytes mem with
    | nil => rw [hb] at hl; exact absurd hl.symm h
    | cons b t =>
      simp only [goIndex, List.getElem?_cons_zero, bind, Except.bind]
      cases hs : seqLength b with
      | none => rfl
      | some n =>
        simp only
        rw [← hb, hl]
        by_cases hn : p.len < n
        · rw [if_pos hn, if_pos hn]; rfl
        · rw [if_neg hn, if_neg hn]
          have h1 := Proc.eval_bind mem (continuationLoopT p 1 (n - 1))
            (fun good => if (!good) = true then Proc.ret (.ok (ErrorProps, 1)) else lookupSwitchT p b n)
          simp only [bind, Except.bind] at h1
          rw [h1, eval_continuationLoopT]
          cases continuationLoop (p.bytes mem) 1 (n - 1) with
          | error e => rfl
          | ok g =>
            cases g
            · rfl
            · exact eval_lookupSwitchT p mem b n

theorem eval_emitT (s : Slice) (mem : Memory) (n : Nat) :
    ((emitT s n).eval mem).map (·.contents mem) = emit (s.bytes mem) n := by
  unfold emitT emit Slice.to goSliceTo
  rw [s.length_bytes]
  by_cases h : n ≤ s.len
  · simp only [if_pos h]
    have := s.bytes_to mem n h
    rw [← this]; rfl
  · simp only [if_neg h]; rfl

theorem eval_from (s : Slice) (mem : Memory) (n : Nat) :
    ((s.from n).eval mem).map (·.bytes mem) = goSliceFrom (s.bytes mem) n := by
  unfold Slice.from goSliceFrom
  rw [s.length_bytes]
  by_cases h : n ≤ s.len
  · simp only [if_pos h, Proc.eval, Except.map, s.bytes_from]
  · simp only [if_neg h]; rfl

theorem map_bind {γ : Type} (g : Go α) (f : α → Go β) (h : β → γ) :
    (g >>= f).map h = g >>= fun v => (f v).map h := by
  cases g <;> rfl

theorem eval_scanLoopT (data : Slice) (mem : Memory) (e : Bool) :
    ∀ fuel count (remain : Slice) state prev,
      ((scanLoopT data e fuel count remain state prev).eval mem).map (·.contents mem) =
        scanLoop (data.bytes mem) e fuel count (remain.bytes mem) state prev := by
  intro fuel
  induction fuel with
  | zero => intros; rfl
  | succ fuel ih =>
    intro count remain state prev
    rw [scanLoopT, scanLoop, remain.length_bytes]
    by_cases h : (remain.len == 0) = true
    · rw [if_pos h, if_pos h]
      cases e
      · rfl
      · exact eval_emitT data mem count
    · rw [if_neg h, if_neg h, Proc.eval_bind, eval_LookupFirstCharT, map_bind]
      congr 1
      funext x
      obtain ⟨next, n⟩ := x
      simp only
      by_cases h1 : (next == ErrorProps) = true
      · rw [if_pos h1, if_pos h1]; exact eval_emitT data mem count
      rw [if_neg h1, if_neg h1]
      by_cases h2 : (n == 0) = true
      · rw [if_pos h2, if_pos h2]
        by_cases h3 : (remain.len != 0 && e) = true
        · rw [if_pos h3, if_pos h3]; exact eval_emitT data mem count
        · rw [if_neg h3, if_neg h3]; rfl
      rw [if_neg h2, if_neg h2, Proc.eval_bind, map_bind, ← eval_from]
      cases (remain.from n).eval mem with
      | error x => rfl
      | ok r =>
        cases ht : Transition state prev next with
        | error x => rfl
        | ok x =>
          obtain ⟨sp, st⟩ := x
          cases sp
          · exact ih _ _ _ _
          · exact eval_emitT data mem count

theorem eval_ScanGraphemeClustersT (data : Slice) (mem : Memory) (e : Bool) :
    ((ScanGraphemeClustersT data e).eval mem).map (·.contents mem) = ScanGraphemeClusters (data.bytes mem) e := by
  unfold ScanGraphemeClustersT ScanGraphemeClusters
  rw [data.length_bytes]
  by_cases h : (data.len == 0) = true
  · rw [if_pos h, if_pos h]; rfl
  rw [if_neg h, if_neg h, Proc.eval_bind, eval_LookupFirstCharT, map_bind]
  congr 1
  funext x
  obtain ⟨props, n⟩ := x
  simp only
  by_cases h1 : (props == ErrorProps) = true
  · rw [if_pos h1, if_pos h1]; exact eval_emitT data mem 1
  rw [if_neg h1, if_neg h1]
  by_cases h2 : (n == 0) = true
  · rw [if_pos h2, if_pos h2]
    by_cases h3 : (decide (data.len > n) && e) = true
    · rw [if_pos h3, if_pos h3]; exact eval_emitT data mem 1
    · rw [if_neg h3, if_neg h3]; rfl
  rw [if_neg h2, if_neg h2, Proc.eval_bind, map_bind, ← eval_from]
  cases (data.from n).eval mem with
  | error x => rfl
  | ok r =>
    cases ht : Begin props with
    | error x => rfl
    | ok st => exact eval_scanLoopT data mem e _ _ _ _ _

/-! ## A call under interference: whatever the reads return -/

/-- Along every path, whatever the reads return: no write, reads only of addresses in `R`, no panic, and the addresses read
(after `h`) and the result satisfy `Q`. -/
def Proc.All (R : Nat → Prop) (Q : List Nat → α → Prop) : Proc α → List Nat → Prop
  | .ret r, h => ∃ v, r = .ok v ∧ Q h v
  | .read a k, h => R a ∧ ∀ b, (k b).All R Q (h ++ [a])
  | .write _ _ _, _ => False

theorem Proc.All.bind {R : Nat → Prop} {Q : List Nat → α → Prop} {Q' : List Nat → β → Prop} {p : Proc α}
    {f : α → Proc β} {h : List Nat} (hp : p.All R Q h) (hf : ∀ h' v, Q h' v → (f v).All R Q' h') :
    (p >>= f).All R Q' h := by
  rw [Proc.bind_eq]
  induction p generalizing h with
  | ret r => obtain ⟨v, rfl, hv⟩ := hp; exact hf _ _ hv
  | read a k ih => exact ⟨hp.1, fun b => ih b (hp.2 b)⟩
  | write a b k ih => exact hp.elim

theorem Proc.All.mono {R : Nat → Prop} {Q Q' : List Nat → α → Prop} {p : Proc α} {h : List Nat} (hp : p.All R Q h)
    (hq : ∀ h' v, Q h' v → Q' h' v) : p.All R Q' h := by
  induction p generalizing h with
  | ret r => obtain ⟨v, rfl, hv⟩ := hp; exact ⟨v, rfl, hq _ _ hv⟩
  | read a k ih => exact ⟨hp.1, fun b => ih b (hp.2 b)⟩
  | write a b k ih => exact hp.elim

theorem all_index {R : Nat → Prop} {Q : List Nat → UInt8 → Prop} {p : Slice} {i : Nat} {h : List Nat}
    (hi : i < p.len) (hR : R (p.base + i)) (hQ : ∀ b, Q (h ++ [p.base + i]) b) : (p.index i).All R Q h := by
  unfold Slice.index
  rw [if_pos hi]
  exact ⟨hR, fun b => ⟨b, rfl, hQ b⟩⟩

/-- `h'` is `h` followed by at most `n` reads of the slice, of its first four bytes. -/
def Reads (p : Slice) (h h' : List Nat) (n : Nat) : Prop :=
  ∃ x, h' = h ++ x ∧ x.length ≤ n ∧ ∀ a ∈ x, p.base ≤ a ∧ a < p.base + 4

theorem Reads.refl (p : Slice) (h : List Nat) (n : Nat) : Reads p h h n := ⟨[], by simp, by simp, by simp⟩

theorem Reads.snoc {p : Slice} {h h' : List Nat} {n i : Nat} (hr : Reads p h h' n) (hi : i < 4) :
    Reads p h (h' ++ [p.base + i]) (n + 1) := by
  obtain ⟨x, rfl, hx, hl⟩ := hr
  refine ⟨x ++ [p.base + i], by simp, by simp; omega, ?_⟩
  intro a ha
  rcases List.mem_append.mp ha with ha | ha
  · exact hl a ha
  · rw [List.mem_singleton] at ha; omega

theorem Reads.le {p : Slice} {h h' : List Nat} {n m : Nat} (hr : Reads p h h' n) (hm : n ≤ m) : Reads p h h' m := by
  obtain ⟨x, rfl, hx, hl⟩ := hr
  exact ⟨x, rfl, by omega, hl⟩

theorem all_continuationLoopT (p : Slice) (h : List Nat) :
    ∀ n i h' m, i + n ≤ p.len → i + n ≤ 4 → Reads p h h' m →
      (continuationLoopT p i n).All p.Holds (fun h' _ => Reads p h h' (m + n)) h' := by
  intro n
  induction n with
  | zero => intro i h' m h1 h2 h3; exact ⟨true, rfl, h3⟩
  | succ n ih =>
    intro i h' m h1 h2 h3
    rw [continuationLoopT]
    refine Proc.All.bind (Q := fun h' _ => Reads p h h' (m + 1))
      (all_index (by omega) ⟨by omega, by omega⟩ fun b => h3.snoc (by omega)) ?_
    intro h'' b hb
    split
    · exact ⟨false, rfl, hb.le (by omega)⟩
    · refine Proc.All.mono (ih (i + 1) h'' (m + 1) (by omega) (by omega) hb) ?_
      intro h' v hv
      exact hv.le (by omega)

/-- A byte with its upper bits replaced by those of a continuation byte. -/
def asCont (b : UInt8) : UInt8 := 0x80 ||| (b &&& 0b111111)

theorem asCont_spec (b : UInt8) : IsCont (asCont b) ∧ (asCont b &&& 0b111111) = (b &&& 0b111111) := by
  revert b
  apply forall_u8
  unfold asCont IsCont
  decide +kernel

theorem ok_of_bind_ok {x : Go α} {f : α → Go β} {v : β} (h : (x >>= f) = .ok v) : ∃ u, x = .ok u ∧ f u = .ok v := by
  cases x with
  | error e => cases h
  | ok u => exact ⟨u, rfl, h⟩

theorem lookup_first_ranges {b : UInt8} {n : Nat} (h : seqLength b = some n) :
    (n = 1 ∧ b ≤ 0x7F) ∨ (n = 2 ∧ 0xC0 ≤ b ∧ b ≤ 0xDF) ∨ (n = 3 ∧ 0xE0 ≤ b ∧ b ≤ 0xEF) ∨
      (n = 4 ∧ 0xF0 ≤ b ∧ b ≤ 0xF7) := by
  revert b
  have : ∀ b : UInt8, (seqLength b = some 1 ∧ b ≤ 0x7F) ∨ (seqLength b = some 2 ∧ 0xC0 ≤ b ∧ b ≤ 0xDF) ∨
    (seqLength b = some 3 ∧ 0xE0 ≤ b ∧ b ≤ 0xEF) ∨ (seqLength b = some 4 ∧ 0xF0 ≤ b ∧ b ≤ 0xF7) ∨ seqLength b = none := by
    apply forall_u8
    decide +kernel
  intro b h
  rcases this b with ⟨h', hb⟩ | ⟨h', hb⟩ | ⟨h', hb⟩ | ⟨h', hb⟩ | h' <;> rw [h] at h' <;> cases h' <;> simp [hb]

theorem all_ret {R : Nat → Prop} {Q : List Nat → α → Prop} {h : List Nat} {r : Go α} {v : α} (hr : r = .ok v)
    (hq : Q h v) : (Proc.ret r).All R Q h := ⟨v, hr, hq⟩

theorem all_lookupSwitchT (p : Slice) (h h' : List Nat) (b : UInt8) (n m : Nat) (hs : seqLength b = some n)
    (hn : n ≤ p.len) (hr : Reads p h h' m) :
    (lookupSwitchT p b n).All p.Holds (fun h' v => v.2 = n ∧ Reads p h h' (m + (n - 1))) h' := by
  unfold lookupSwitchT
  rcases lookup_first_ranges hs with ⟨rfl, h1⟩ | ⟨rfl, h1, h2⟩ | ⟨rfl, h1, h2⟩ | ⟨rfl, h1, h2⟩
  · have h3 := switch1 b [] h1
    unfold lookupSwitch lookupSwitchIn at h3
    rw [if_pos rfl] at h3
    obtain ⟨u, hu, -⟩ := ok_of_bind_ok h3
    rw [if_pos rfl]
    exact Proc.All.bind (Q := fun h'' _ => h'' = h') (all_ret hu rfl)
      (fun h'' v e => by subst e; exact ⟨_, rfl, rfl, hr⟩)
  · have h3 := fun c : UInt8 => switch2 b (asCont c) [] h1 h2 (asCont_spec c).1
    rw [if_neg (by decide), if_pos rfl]
    unfold lookupSwitch lookupSwitchIn at h3
    simp only [if_neg (show ¬ (2 = 1) by decide), if_pos] at h3
    obtain ⟨u, hu, -⟩ := ok_of_bind_ok (h3 0)
    refine Proc.All.bind (Q := fun h'' v => h'' = h' ∧ v = u) (all_ret hu ⟨rfl, rfl⟩) ?_
    rintro _ _ ⟨rfl, rfl⟩
    refine Proc.All.bind (Q := fun h' _ => Reads p h h' (m + 1))
      (all_index (by omega) ⟨by omega, by omega⟩ fun b => hr.snoc (by omega)) ?_
    intro h'' c hc
    have h4 := h3 c
    rw [hu] at h4
    simp only [bind, Except.bind, goIndex, List.getElem?_cons_succ, List.getElem?_cons_zero, (asCont_spec c).2] at h4
    obtain ⟨w, hw, -⟩ := ok_of_bind_ok h4
    exact Proc.All.bind (Q := fun h''' _ => h''' = h'') (all_ret hw rfl)
      (fun _ v e => by subst e; exact ⟨_, rfl, rfl, hc⟩)
  · have h3 := fun c d : UInt8 => switch3 b (asCont c) (asCont d) [] h1 h2 (asCont_spec c).1 (asCont_spec d).1
    rw [if_neg (by decide), if_neg (by decide), if_pos rfl]
    unfold lookupSwitch lookupSwitchIn at h3
    simp only [if_neg (show ¬ (3 = 1) by decide), if_neg (show ¬ (3 = 2) by decide), if_pos] at h3
    obtain ⟨u, hu, -⟩ := ok_of_bind_ok (h3 0 0)
    refine Proc.All.bind (Q := fun h'' v => h'' = h' ∧ v = u) (all_ret hu ⟨rfl, rfl⟩) ?_
    rintro _ _ ⟨rfl, rfl⟩
    refine Proc.All.bind (Q := fun h' _ => Reads p h h' (m + 1))
      (all_index (by omega) ⟨by omega, by omega⟩ fun b => hr.snoc (by omega)) ?_
    intro h1' c hc
    have h4 := fun d => h3 c d
    simp only [hu, bind, Except.bind, goIndex, List.getElem?_cons_succ, List.getElem?_cons_zero, (asCont_spec _).2] at h4
    obtain ⟨w, hw, -⟩ := ok_of_bind_ok (h4 0)
    refine Proc.All.bind (Q := fun h'' v => h'' = h1' ∧ v = w) (all_ret hw ⟨rfl, rfl⟩) ?_
    rintro _ _ ⟨rfl, rfl⟩
    refine Proc.All.bind (Q := fun h' _ => Reads p h h' (m + 2))
      (all_index (by omega) ⟨by omega, by omega⟩ fun b => hc.snoc (by omega)) ?_
    intro h2' d hd
    have h5 := h4 d
    simp only [hw] at h5
    obtain ⟨x, hx, -⟩ := ok_of_bind_ok h5
    exact Proc.All.bind (Q := fun h''' _ => h''' = h2') (all_ret hx rfl)
      (fun _ v e => by subst e; exact ⟨_, rfl, rfl, hd⟩)
  · have h3 := fun c d e : UInt8 => switch4 b (asCont c) (asCont d) (asCont e) [] h1 h2 (asCont_spec c).1
      (asCont_spec d).1 (asCont_spec e).1
    rw [if_neg (by decide), if_neg (by decide), if_neg (by decide), if_pos rfl]
    unfold lookupSwitch lookupSwitchIn at h3
    simp only [if_neg (show ¬ (4 = 1) by decide), if_neg (show ¬ (4 = 2) by decide), if_neg (show ¬ (4 = 3) by decide),
      if_pos] at h3
    obtain ⟨u, hu, -⟩ := ok_of_bind_ok (h3 0 0 0)
    refine Proc.All.bind (Q := fun h'' v => h'' = h' ∧ v = u) (all_ret hu ⟨rfl, rfl⟩) ?_
    rintro _ _ ⟨rfl, rfl⟩
    refine Proc.All.bind (Q := fun h' _ => Reads p h h' (m + 1))
      (all_index (by omega) ⟨by omega, by omega⟩ fun b => hr.snoc (by omega)) ?_
    intro h1' c hc
    have h4 := fun d e => h3 c d e
    simp only [hu, bind, Except.bind, goIndex, List.getElem?_cons_succ, List.getElem?_cons_zero, (asCont_spec _).2] at h4
    obtain ⟨w, hw, -⟩ := ok_of_bind_ok (h4 0 0)
    refine Proc.All.bind (Q := fun h'' v => h'' = h1' ∧ v = w) (all_ret hw ⟨rfl, rfl⟩) ?_
    rintro _ _ ⟨rfl, rfl⟩
    refine Proc.All.bind (Q := fun h' _ => Reads p h h' (m + 2))
      (all_index (by omega) ⟨by omega, by omega⟩ fun b => hc.snoc (by omega)) ?_
    intro h2' d hd
    have h5 := fun e => h4 d e
    simp only [hw] at h5
    obtain ⟨x, hx, -⟩ := ok_of_bind_ok (h5 0)
    refine Proc.All.bind (Q := fun h'' v => h'' = h2' ∧ v = x) (all_ret hx ⟨rfl, rfl⟩) ?_
    rintro _ _ ⟨rfl, rfl⟩
    refine Proc.All.bind (Q := fun h' _ => Reads p h h' (m + 3))
      (all_index (by omega) ⟨by omega, by omega⟩ fun b => hd.snoc (by omega)) ?_
    intro h3' e he
    have h6 := h5 e
    simp only [hx] at h6
    obtain ⟨y, hy, -⟩ := ok_of_bind_ok h6
    exact Proc.All.bind (Q := fun h''' _ => h''' = h3') (all_ret hy rfl)
      (fun _ v e => by subst e; exact ⟨_, rfl, rfl, he⟩)

/-- What a lookup can return, and how much it reads. -/
def LookRes (p : Slice) (h h' : List Nat) (v : CharProperties × Nat) : Prop :=
  (v = (zeroProperties, 0) ∧ Reads p h h' p.len) ∨
  (v.1 = ErrorProps ∧ Reads p h h' (2 * p.len)) ∨
  (1 ≤ v.2 ∧ v.2 ≤ p.len ∧ v.2 ≤ 4 ∧ Reads p h h' (2 * v.2))

theorem all_LookupFirstCharT (p : Slice) (h : List Nat) :
    (LookupFirstCharT p).All p.Holds (fun h' v => LookRes p h h' v) h := by
  unfold LookupFirstCharT
  by_cases h0 : p.len = 0
  · rw [if_pos (by simp [h0])]
    exact ⟨_, rfl, Or.inl ⟨rfl, Reads.refl _ _ _⟩⟩
  rw [if_neg (by simp [h0])]
  refine Proc.All.bind (Q := fun h' _ => Reads p h h' 1)
    (all_index (by omega) ⟨by omega, by omega⟩ fun b => (Reads.refl p h 0).snoc (by omega)) ?_
  intro h1 b hb
  cases hs : seqLength b with
  | none => exact ⟨_, rfl, Or.inr (Or.inl ⟨rfl, hb.le (by omega)⟩)⟩
  | some n =>
    simp only
    by_cases hn : p.len < n
    · rw [if_pos hn]
      exact ⟨_, rfl, Or.inl ⟨rfl, hb.le (by omega)⟩⟩
    rw [if_neg hn]
    have hn1 : 1 ≤ n ∧ n ≤ 4 := by rcases lookup_first_ranges hs with h | h | h | h <;> omega
    refine Proc.All.bind (all_continuationLoopT p h (n - 1) 1 h1 1 (by omega) (by omega) hb) ?_
    intro h2 good h3
    cases good
    · exact ⟨_, rfl, Or.inr (Or.inl ⟨rfl, h3.le (by omega)⟩)⟩
    · refine Proc.All.mono (all_lookupSwitchT p h h2 b n _ hs (by omega) h3) ?_
      rintro h4 ⟨pr, k⟩ ⟨hk, h5⟩
      simp only at hk
      subst hk
      exact Or.inr (Or.inr ⟨hn1.1, by simp only; omega, hn1.2, h5.le (by simp only; omega)⟩)

/-- The states a call can be in. -/
def Valid (s : State) : Prop := s = StateBase ∨ s = StateAwaitEmojiFlag ∨ s = StateGB11BeforeZWJ ∨ s = StateGB11AfterZWJ ∨
  s = StateGB9cConsonant ∨ s = StateGB9cLinker

/-- From a valid state the machine goes to a valid state, whatever property value it is given. -/
theorem nextState_valid {s : State} (h : Valid s) (c : CharProperties) : ∃ t, nextState s c = .ok t ∧ Valid t := by
  have v0 : Valid StateBase := Or.inl rfl
  have v1 : Valid StateAwaitEmojiFlag := Or.inr (Or.inl rfl)
  have v2 : Valid StateGB11BeforeZWJ := Or.inr (Or.inr (Or.inl rfl))
  have v3 : Valid StateGB11AfterZWJ := Or.inr (Or.inr (Or.inr (Or.inl rfl)))
  have v4 : Valid StateGB9cConsonant := Or.inr (Or.inr (Or.inr (Or.inr (Or.inl rfl))))
  have v5 : Valid StateGB9cLinker := Or.inr (Or.inr (Or.inr (Or.inr (Or.inr rfl))))
  unfold nextState
  generalize gcbProperty c = g
  generalize inCBProperty c = i
  rcases h with rfl | rfl | rfl | rfl | rfl | rfl <;>
    simp only [StateBase, StateAwaitEmojiFlag, StateGB11BeforeZWJ, StateGB11AfterZWJ, StateGB9cConsonant, StateGB9cLinker]
      at v0 v1 v2 v3 v4 v5 ⊢ <;>
    simp (decide := true) only [if_true, if_false] <;>
    (repeat' split) <;> first
      | exact ⟨_, rfl, v0⟩ | exact ⟨_, rfl, v1⟩ | exact ⟨_, rfl, v2⟩ | exact ⟨_, rfl, v3⟩ | exact ⟨_, rfl, v4⟩
      | exact ⟨_, rfl, v5⟩

theorem Transition_valid {s : State} (h : Valid s) (p c : CharProperties) :
    ∃ b t, Transition s p c = .ok (b, t) ∧ Valid t := by
  obtain ⟨t, ht, hv⟩ := nextState_valid h c
  exact ⟨_, t, by unfold Transition; rw [ht]; rfl, hv⟩

/-- What a call can return: nothing yet, or a token that is a beginning of its data; and the reads it has made. -/
def ScanOut (data : Slice) (e : Bool) (h : List Nat) (v : SplitView) : Prop :=
  h.length ≤ 2 * data.len ∧ v.err = none ∧
  ((v = needMoreT ∧ (e = true → data.len = 0)) ∨
   (1 ≤ v.advance ∧ v.advance ≤ data.len ∧ v.token = some ⟨data.base, v.advance⟩ ∧
     ∀ a ∈ h, a < data.base + v.advance + 4))

theorem all_emitT {data : Slice} {e : Bool} {h : List Nat} {n : Nat} (h1 : h.length ≤ 2 * data.len) (hn : 1 ≤ n)
    (hl : n ≤ data.len) (ha : ∀ a ∈ h, a < data.base + n + 4) : (emitT data n).All data.Holds (ScanOut data e) h := by
  unfold emitT Slice.to
  rw [if_pos hl]
  exact ⟨_, rfl, h1, rfl, Or.inr ⟨hn, hl, rfl, ha⟩⟩

theorem Proc.All.weaken {R R' : Nat → Prop} {Q : List Nat → α → Prop} {p : Proc α} {h : List Nat} (hp : p.All R Q h)
    (hR : ∀ a, R a → R' a) : p.All R' Q h := by
  induction p generalizing h with
  | ret r => exact hp
  | read a k ih => exact ⟨hR _ hp.1, fun b => ih b (hp.2 b)⟩
  | write a b k ih => exact hp.elim

theorem all_scanLoopT (data : Slice) (e : Bool) :
    ∀ fuel count (remain : Slice) state prev h, Valid state → 1 ≤ count → remain.base = data.base + count →
      count + remain.len = data.len → remain.len < fuel → h.length ≤ 2 * count → (∀ a ∈ h, a < data.base + count + 4) →
      (scanLoopT data e fuel count remain state prev).All data.Holds (ScanOut data e) h := by
  intro fuel
  induction fuel with
  | zero => intro count remain state prev h _ _ _ _ hf; omega
  | succ fuel ih =>
    intro count remain state prev h hv hc hb hl hf hh ha
    rw [scanLoopT]
    by_cases h0 : remain.len = 0
    · rw [if_pos (by simp [h0])]
      cases e
      · exact ⟨_, rfl, by omega, rfl, Or.inl ⟨rfl, by simp⟩⟩
      · exact all_emitT (by omega) hc (by omega) ha
    rw [if_neg (by simp [h0])]
    refine Proc.All.bind (Q := fun h' v => LookRes remain h h' v)
      (Proc.All.weaken (all_LookupFirstCharT remain h) (by unfold Slice.Holds; omega)) ?_
    rintro h' ⟨next, n⟩ hr
    have key : ∀ m, Reads remain h h' m → h'.length ≤ 2 * count + m ∧ ∀ a ∈ h', a < data.base + count + 4 := by
      rintro m ⟨x, rfl, hx, hxa⟩
      refine ⟨by rw [List.length_append]; omega, ?_⟩
      intro a haa
      rcases List.mem_append.mp haa with haa | haa
      · exact ha a haa
      · have := hxa a haa; omega
    have low : h'.length ≤ 2 * data.len ∧ ∀ a ∈ h', a < data.base + count + 4 := by
      rcases hr with ⟨_, hr⟩ | ⟨_, hr⟩ | ⟨_, h2, _, hr⟩
      · have := key _ hr; exact ⟨by omega, this.2⟩
      · have := key _ hr; exact ⟨by omega, this.2⟩
      · simp only at h2 hr
        have := key _ hr; exact ⟨by omega, this.2⟩
    simp only
    by_cases h1 : (next == ErrorProps) = true
    · rw [if_pos h1]
      exact all_emitT low.1 hc (by omega) low.2
    rw [if_neg h1]
    by_cases h2 : n = 0
    · rw [if_pos (by simp [h2])]
      by_cases h3 : (remain.len != 0 && e) = true
      · rw [if_pos h3]
        exact all_emitT low.1 hc (by omega) low.2
      · rw [if_neg h3]
        refine ⟨_, rfl, low.1, rfl, Or.inl ⟨rfl, ?_⟩⟩
        intro he; simp [h0, he] at h3
    rw [if_neg (by simp [h2])]
    rcases hr with ⟨hr, _⟩ | ⟨hr, _⟩ | ⟨_, h3, _, hr⟩
    · cases hr; exact absurd rfl h2
    · simp only at hr; exact absurd (by simp [hr]) h1
    simp only at h3 hr
    refine Proc.All.bind (Q := fun h'' v => h'' = h' ∧ v = ⟨remain.base + n, remain.len - n⟩)
      (by unfold Slice.from; rw [if_pos h3]; exact ⟨_, rfl, rfl, rfl⟩) ?_
    rintro _ _ ⟨rfl, rfl⟩
    obtain ⟨sp, t, ht, hvt⟩ := Transition_valid hv prev next
    refine Proc.All.bind (Q := fun h'' v => h'' = _ ∧ v = (sp, t)) (all_ret ht ⟨rfl, rfl⟩) ?_
    rintro _ _ ⟨rfl, rfl⟩
    simp only
    cases sp
    · have := key _ hr
      refine ih (count + n) _ t next _ hvt (by omega) (by simp only; omega) (by simp only; omega) (by simp only; omega)
        (by omega) ?_
      intro a ha'
      have := this.2 a ha'
      omega
    · exact all_emitT low.1 hc (by omega) low.2

theorem all_ScanGraphemeClustersT (data : Slice) (e : Bool) :
    (ScanGraphemeClustersT data e).All data.Holds (ScanOut data e) [] := by
  unfold ScanGraphemeClustersT
  by_cases h0 : data.len = 0
  · rw [if_pos (by simp [h0])]
    exact ⟨_, rfl, by simp, rfl, Or.inl ⟨rfl, fun _ => h0⟩⟩
  rw [if_neg (by simp [h0])]
  refine Proc.All.bind (all_LookupFirstCharT data []) ?_
  rintro h' ⟨next, n⟩ hr
  have key : ∀ m, Reads data [] h' m → h'.length ≤ m ∧ ∀ a ∈ h', a < data.base + 4 := by
    rintro m ⟨x, rfl, hx, hxa⟩
    exact ⟨hx, fun a haa => (hxa a haa).2⟩
  have low : h'.length ≤ 2 * data.len ∧ ∀ a ∈ h', a < data.base + 4 := by
    rcases hr with ⟨_, hr⟩ | ⟨_, hr⟩ | ⟨_, h2, _, hr⟩
    · have := key _ hr; exact ⟨by omega, this.2⟩
    · have := key _ hr; exact ⟨by omega, this.2⟩
    · simp only at h2 hr
      have := key _ hr; exact ⟨by omega, this.2⟩
  have low' : ∀ n, ∀ a ∈ h', a < data.base + n + 4 := fun n a ha => by have := low.2 a ha; omega
  simp only
  by_cases h1 : (next == ErrorProps) = true
  · rw [if_pos h1]
    exact all_emitT low.1 (by omega) (by omega) (low' 1)
  rw [if_neg h1]
  by_cases h2 : n = 0
  · rw [if_pos (by simp [h2])]
    by_cases h3 : (decide (data.len > n) && e) = true
    · rw [if_pos h3]
      exact all_emitT low.1 (by omega) (by omega) (low' 1)
    · rw [if_neg h3]
      refine ⟨_, rfl, low.1, rfl, Or.inl ⟨rfl, ?_⟩⟩
      intro he
      simp [he] at h3
      omega
  rw [if_neg (by simp [h2])]
  rcases hr with ⟨hr, _⟩ | ⟨hr, _⟩ | ⟨_, h3, _, hr⟩
  · cases hr; exact absurd rfl h2
  · simp only at hr; exact absurd (by simp [hr]) h1
  simp only at h3 hr
  refine Proc.All.bind (Q := fun h'' v => h'' = h' ∧ v = ⟨data.base + n, data.len - n⟩)
    (by unfold Slice.from; rw [if_pos h3]; exact ⟨_, rfl, rfl, rfl⟩) ?_
  rintro _ _ ⟨rfl, rfl⟩
  obtain ⟨t, ht, hvt⟩ := nextState_valid (s := StateBase) (Or.inl rfl) next
  refine Proc.All.bind (Q := fun h'' v => h'' = _ ∧ v = t) (all_ret (show Begin next = .ok t from ht) ⟨rfl, rfl⟩) ?_
  rintro _ _ ⟨rfl, rfl⟩
  have := key _ hr
  exact all_scanLoopT data e _ n _ _ next _ hvt (by omega) rfl (by simp only; omega) (by simp only; omega) (by omega) (low' n)

/-! ## Several calls -/

/-- The addresses call `i` has read. -/
def readsOf (i : Nat) (tr : List (Who × Access)) : List Nat :=
  tr.filterMap fun e => match e with | (.call j, .read a _) => if j = i then some a else none | _ => none

/-- What holds of call `i` as long as it runs. -/
theorem exec_all {R : Nat → Prop} {Q : List Nat → SplitView → Prop} {s s' : Sys} {tr : List (Who × Access)}
    (hx : Sys.Exec s tr s') (i : Nat) :
    ∀ p h, s.calls[i]? = some p → p.All R Q h → ∃ p', s'.calls[i]? = some p' ∧ p'.All R Q (h ++ readsOf i tr) ∧
      ∀ acc, (Who.call i, acc) ∈ tr → ∃ a b, acc = .read a b ∧ R a := by
  induction hx with
  | nil s => intro p h hp hq; exact ⟨p, hp, by simpa [readsOf] using hq, by simp⟩
  | cons s s1 s2 e tr hs hx ih =>
    intro p h hp hq
    cases hs with
    | read i' a k hk =>
      by_cases hi : i' = i
      · subst hi
        have : p = .read a k := by rw [hp] at hk; exact Option.some.inj hk
        subst this
        have hlt : i' < s.calls.length := (List.getElem?_eq_some_iff.mp hk).1
        obtain ⟨p', h1, h2, h3⟩ := ih (k (s.mem a)) (h ++ [a]) (by simp [hlt]) (hq.2 _)
        refine ⟨p', h1, by simpa [readsOf, List.append_assoc] using h2, ?_⟩
        intro acc hacc
        rcases List.mem_cons.mp hacc with hacc | hacc
        · rw [Prod.mk.injEq] at hacc; exact ⟨a, _, hacc.2, hq.1⟩
        · exact h3 acc hacc
      · obtain ⟨p', h1, h2, h3⟩ := ih p h (by simp [hi, hp]) hq
        refine ⟨p', h1, by simpa [readsOf, hi] using h2, ?_⟩
        intro acc hacc
        rcases List.mem_cons.mp hacc with hacc | hacc
        · rw [Prod.mk.injEq, Who.call.injEq] at hacc; exact absurd hacc.1.symm hi
        · exact h3 acc hacc
    | write i' a b k hk =>
      by_cases hi : i' = i
      · subst hi
        have : p = .write a b k := by rw [hp] at hk; exact Option.some.inj hk
        subst this
        exact hq.elim
      · obtain ⟨p', h1, h2, h3⟩ := ih p h (by simp [hi, hp]) hq
        refine ⟨p', h1, by simpa [readsOf] using h2, ?_⟩
        intro acc hacc
        rcases List.mem_cons.mp hacc with hacc | hacc
        · rw [Prod.mk.injEq, Who.call.injEq] at hacc; exact absurd hacc.1.symm hi
        · exact h3 acc hacc
    | other a b =>
      obtain ⟨p', h1, h2, h3⟩ := ih p h hp hq
      refine ⟨p', h1, by simpa [readsOf] using h2, ?_⟩
      intro acc hacc
      rcases List.mem_cons.mp hacc with hacc | hacc
      · rw [Prod.mk.injEq] at hacc; cases hacc.1
      · exact h3 acc hacc

theorem start_calls {mem : Memory} {cs : List (Slice × Bool)} {i : Nat} {c : Slice × Bool} (hc : cs[i]? = some c) :
    (Sys.start mem cs).calls[i]? = some (ScanGraphemeClustersT c.1 c.2) := by
  simp [Sys.start, hc]

theorem exec_start {mem : Memory} {cs : List (Slice × Bool)} {tr : List (Who × Access)} {s : Sys}
    (hx : (Sys.start mem cs).Exec tr s) {i : Nat} {c : Slice × Bool} (hc : cs[i]? = some c) :
    ∃ p, s.calls[i]? = some p ∧ p.All c.1.Holds (ScanOut c.1 c.2) (readsOf i tr) ∧
      ∀ acc, (Who.call i, acc) ∈ tr → ∃ a b, acc = .read a b ∧ c.1.Holds a := by
  have := exec_all hx i _ [] (start_calls hc) (all_ScanGraphemeClustersT c.1 c.2)
  simpa using this

theorem exec_length {s s' : Sys} {tr : List (Who × Access)} (hx : Sys.Exec s tr s') :
    s'.calls.length = s.calls.length := by
  induction hx with
  | nil s => rfl
  | cons s s1 s2 e tr hs hx ih => rw [ih]; cases hs <;> simp

/-- Every step of a call is a read, in its slice. -/
theorem exec_reads {mem : Memory} {cs : List (Slice × Bool)} {tr : List (Who × Access)} {s : Sys}
    (hx : (Sys.start mem cs).Exec tr s) {i : Nat} {acc : Access} (h : (Who.call i, acc) ∈ tr) :
    ∃ c a b, cs[i]? = some c ∧ acc = .read a b ∧ c.1.Holds a := by
  have hi : i < cs.length := by
    have : ∀ {s s' : Sys} {tr : List (Who × Access)}, s.Exec tr s' → (Who.call i, acc) ∈ tr → i < s.calls.length := by
      intro s s' tr hx
      induction hx with
      | nil s => simp
      | cons s s1 s2 e tr hs hx ih =>
        intro h
        rcases List.mem_cons.mp h with h | h
        · cases hs with
          | read i' a k hk =>
            rw [Prod.mk.injEq, Who.call.injEq] at h
            rw [h.1]; exact (List.getElem?_eq_some_iff.mp hk).1
          | write i' a b k hk =>
            rw [Prod.mk.injEq, Who.call.injEq] at h
            rw [h.1]; exact (List.getElem?_eq_some_iff.mp hk).1
          | other a b => rw [Prod.mk.injEq] at h; cases h.1
        · have := ih h
          have h2 := exec_length (.cons _ _ _ _ [] hs (.nil _))
          omega
    have := this hx h
    simpa [Sys.start] using this
  obtain ⟨p, -, -, h3⟩ := exec_start hx (c := cs[i]) (i := i) (by simp [hi])
  obtain ⟨a, b, h4, h5⟩ := h3 acc h
  exact ⟨cs[i], a, b, by simp [hi], h4, h5⟩

/-- As long as nobody writes to the addresses a goroutine reads, its result is settled. -/
theorem exec_eval {R : Nat → Prop} {Q : List Nat → SplitView → Prop} {s s' : Sys} {tr : List (Who × Access)}
    (hx : Sys.Exec s tr s') (i : Nat) :
    ∀ p h, s.calls[i]? = some p → p.All R Q h → (∀ w a b, (w, Access.write a b) ∈ tr → ¬ R a) →
      (∀ a, R a → s'.mem a = s.mem a) ∧ ∀ p', s'.calls[i]? = some p' → p'.eval s.mem = p.eval s.mem := by
  induction hx with
  | nil s =>
    intro p h hp hq hw
    refine ⟨fun _ _ => rfl, fun p' hp' => ?_⟩
    rw [hp] at hp'
    rw [Option.some.inj hp']
  | cons s s1 s2 e tr hs hx ih =>
    intro p h hp hq hw
    have hw' : ∀ w a b, (w, Access.write a b) ∈ tr → ¬ R a := fun w a b hm => hw w a b (List.mem_cons_of_mem _ hm)
    have agree : ∀ (m : Memory) (p : Proc SplitView) (h : List Nat), p.All R Q h → (∀ a, R a → m a = s.mem a) →
        p.eval m = p.eval s.mem := by
      intro m p
      induction p with
      | ret r => intros; rfl
      | read a k ih => intro h hq hm; simp only [Proc.eval]; rw [hm a hq.1]; exact ih _ _ (hq.2 _) hm
      | write a b k ih => intro h hq; exact hq.elim
    cases hs with
    | read i' a k hk =>
      by_cases hi : i' = i
      · subst hi
        have : p = .read a k := by rw [hp] at hk; exact Option.some.inj hk
        subst this
        have hlt : i' < s.calls.length := (List.getElem?_eq_some_iff.mp hk).1
        exact ih (k (s.mem a)) (h ++ [a]) (by simp [hlt]) (hq.2 _) hw'
      · exact ih p h (by simp [hi, hp]) hq hw'
    | write i' a b k hk =>
      by_cases hi : i' = i
      · subst hi
        have : p = .write a b k := by rw [hp] at hk; exact Option.some.inj hk
        subst this
        exact hq.elim
      · have hna := hw _ a b (List.mem_cons_self ..)
        have hm : ∀ x, R x → (s.mem.set a b) x = s.mem x := by
          intro x hRx
          unfold Memory.set
          exact if_neg (by intro e; rw [e] at hRx; exact hna hRx)
        obtain ⟨h1, h2⟩ := ih p h (by simp [hi, hp]) hq hw'
        refine ⟨fun x hx => (h1 x hx).trans (hm x hx), fun p' hp' => ?_⟩
        have hall := exec_all hx i p h (by simp [hi, hp]) hq
        obtain ⟨q, hq1, hq2, -⟩ := hall
        rw [hp'] at hq1
        cases hq1
        have := h2 p' hp'
        rw [agree _ p h hq hm, agree _ p' _ hq2 hm] at this
        exact this
    | other a b =>
      have hna := hw _ a b (List.mem_cons_self ..)
      have hm : ∀ x, R x → (s.mem.set a b) x = s.mem x := by
        intro x hRx
        unfold Memory.set
        exact if_neg (by intro e; rw [e] at hRx; exact hna hRx)
      obtain ⟨h1, h2⟩ := ih p h hp hq hw'
      refine ⟨fun x hx => (h1 x hx).trans (hm x hx), fun p' hp' => ?_⟩
      obtain ⟨q, hq1, hq2, -⟩ := exec_all hx i p h hp hq
      rw [hp'] at hq1
      cases hq1
      have := h2 p' hp'
      rw [agree _ p h hq hm, agree _ p' _ hq2 hm] at this
      exact this

theorem bytes_congr {s : Slice} {m m' : Memory} (h : ∀ a, s.Holds a → m a = m' a) : s.bytes m = s.bytes m' := by
  unfold Slice.bytes
  apply List.map_congr_left
  intro i hi
  rw [List.mem_range] at hi
  exact h _ ⟨by omega, by omega⟩

theorem readsOf_length (i : Nat) {tr : List (Who × Access)}
    (h : ∀ acc, (Who.call i, acc) ∈ tr → ∃ a b, acc = .read a b) :
    (readsOf i tr).length = (tr.filter fun e => e.1 = .call i).length := by
  induction tr with
  | nil => rfl
  | cons e tr ih =>
    have ih := ih (fun acc hm => h acc (List.mem_cons_of_mem _ hm))
    obtain ⟨w, acc⟩ := e
    cases w with
    | other => simpa [readsOf] using ih
    | call j =>
      by_cases hj : j = i
      · subst hj
        obtain ⟨a, b, rfl⟩ := h acc (List.mem_cons_self ..)
        simpa [readsOf] using ih
      · cases acc <;> simpa [readsOf, hj] using ih

end Textseg
