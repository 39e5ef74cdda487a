import Verif.Proofs.MemTest4
import Verif.Spec.TestSource
/-!
# The loop over the test data does what the model says
-/

namespace Textseg.GoMem.TD
open Textseg.GoLang (TyId tyInt tyU8 Halt importName wrap)
open Textseg.Spec
set_option linter.unusedSimpArgs false

theorem parseChars_err : ∀ (ps : List (List UInt8)) (input cur : List UInt8) (e : ParseErr), parseChars ps input cur = .error e → ∃ s, e = .invalidChar s
  | [], _, _, _, h => by cases h
  | p :: ps, input, cur, e, h => by
    rw [parseChars] at h
    simp only [] at h
    split at h
    · exact parseChars_err ps _ _ e h
    · split at h
      · cases h; exact ⟨_, rfl⟩
      · exact parseChars_err ps _ _ e h

theorem parseSegs_err : ∀ (ps : List (List UInt8)) (en : TestDataEntry) (e : ParseErr), parseSegs ps en = .ok (.error e) → ∃ s, e = .invalidChar s
  | [], _, _, h => by cases h
  | p :: ps, en, e, h => by
    rw [parseSegs] at h
    simp only [bind, Except.bind] at h
    split at h
    · cases h
    · split at h
      · next he => cases h; exact parseChars_err _ _ _ _ he
      · exact parseSegs_err ps _ e h

theorem parseTestLine_err {raw : List UInt8} {e : ParseErr} (h : parseTestLine raw = .ok (some (.error e))) : ∃ s, e = .invalidChar s := by
  simp only [parseTestLine] at h
  split at h
  · cases h
  · simp only [bind, Except.bind] at h
    split at h
    · cases h
    · split at h
      · cases h
      · next hs => cases h; exact parseSegs_err _ _ _ hs

theorem nextTest_err {σ : Type} (m : Machine) (read : Reader σ) : ∀ (n : Nat) (s s' : Scanner σ) (e : ParseErr), NextTestEntry read n s = .ok (.error e, s') → TestError m e (errOf m e)
  | 0, _, _, _, h => by cases h
  | n + 1, s, s', e, h => by
    rw [NextTestEntry] at h
    simp only [bind, Except.bind] at h
    split at h
    · cases h
    · split at h
      · cases h
        simp only [endOfLines]
        split <;> rfl
      · split at h
        · cases h
        · split at h
          · exact nextTest_err m read n _ _ _ h
          · next hp =>
            cases h
            obtain ⟨s, rfl⟩ := parseTestLine_err hp
            rfl

theorem seeBytes_grown {h : Heap} {o : Option Sl} {bs : List UInt8} (t : TyId) (e : GTy) (g : Grown h o (bs.map (.u8 tyU8))) : seeBytes (.slice t e o) h = .ok (nilIfEmpty bs, h) := by
  cases o with
  | none => cases List.map_eq_nil_iff.mp g; rfl
  | some s =>
    have hr := g.read
    obtain ⟨cap, tl, e1, e2, e3, e4⟩ := g
    have hne : bs.isEmpty = false := by cases bs with | nil => exact absurd rfl e4 | cons x xs => rfl
    simp only [seeBytes, bind_apply, hr, bindR_ok, bytesOf_map, pure_apply, nilIfEmpty, hne, Bool.false_eq_true, if_false]

theorem seeAllBytes_spec (h : Heap) : ∀ (ws : List (Option Sl)) (segs : List (List UInt8)), ws.length = segs.length →
    (∀ (j : Nat) (o : Option Sl) (p : List UInt8), ws[j]? = some o → segs[j]? = some p → Grown h o (p.map (.u8 tyU8))) →
    seeAllBytes (ws.map (.slice noName tB)) h = .ok (segs.map nilIfEmpty, h)
  | [], [], _, _ => rfl
  | o :: ws, p :: segs, hl, hs => by
    have e1 := seeBytes_grown noName tB (hs 0 o p rfl rfl)
    have e2 := seeAllBytes_spec h ws segs (by simpa using hl) fun j o p hj hp => hs (j + 1) o p (by simpa using hj) (by simpa using hp)
    simp only [List.map_cons, seeAllBytes, bind_apply, e1, e2, bindR_ok, pure_apply]
  | [], _ :: _, hl, _ => by simp at hl
  | _ :: _, [], hl, _ => by simp at hl

theorem seeTest_spec {N : Nat} {h : Heap} {oIn oW : Option Sl} {ws : List (Option Sl)} {e : TestDataEntry} (hE : EntryAt N h oIn oW ws e) :
    seeTest (.struct tTE (teFields oIn oW)) h = .ok (testSeen e.Input e.WantSegments, h) := by
  have f1 : fieldOf (.struct tTE (teFields oIn oW)) (name! "Input") h = .ok (.slice noName tB oIn, h) := rfl
  have f2 : fieldOf (.struct tTE (teFields oIn oW)) (name! "WantSegments") h = .ok (.slice noName tBB oW, h) := rfl
  have e1 := seeBytes_grown noName tB hE.inp
  have e2 := seeAllBytes_spec h ws e.WantSegments hE.len hE.seg
  have hr := hE.want.read
  cases oW with
  | none =>
    have : ws = [] := List.map_eq_nil_iff.mp hE.want
    subst this
    have hs : e.WantSegments = [] := List.length_eq_zero_iff.mp hE.len.symm
    simp only [seeTest, bind_apply, f1, f2, bindR_ok, e1, pure_apply, testSeen, hs]
    rfl
  | some s =>
    obtain ⟨cap, tl, k1, k2, k3, k4⟩ := hE.want
    have hne : (e.WantSegments.map (nilIfEmpty (α := UInt8))).isEmpty = false := by
      have hl := hE.len
      cases hw : e.WantSegments with
      | nil =>
        rw [hw] at hl
        have : ws = [] := List.length_eq_zero_iff.mp hl
        subst this
        exact absurd rfl k4
      | cons x xs => rfl
    simp only [seeTest, bind_apply, f1, f2, bindR_ok, e1, hr, e2, pure_apply, testSeen, nilIfEmpty, hne, Bool.false_eq_true, if_false]

/-- The value of an entry in the memory `h`: its slices are in none of the arrays `b` with `P b`. -/
def ValAt (P : Nat → Prop) (h : Heap) (v : Val) (e : TestDataEntry) : Prop :=
  ∃ N oIn oW ws, v = .struct tTE (teFields oIn oW) ∧ EntryAt N h oIn oW ws e ∧ ∀ b, P b → b < N

theorem seeTests_spec (h : Heap) {vs : List Val} {es : List TestDataEntry} (hv : ForallTwo (fun v e => ∃ P, ValAt P h v e) vs es) :
    seeTests vs h = .ok (es.map fun e => testSeen e.Input e.WantSegments, h) := by
  induction hv with
  | nil => rfl
  | cons v e vs es hh _ ih =>
    obtain ⟨P, N, oIn, oW, ws, rfl, hE, -⟩ := hh
    simp only [List.map_cons, seeTests, bind_apply, seeTest_spec hE, ih, bindR_ok, pure_apply]

/-- A place where the loop may be. -/
structure TestAt {σ : Type} (m : Machine) (id : Nat) (read : Reader σ) (h : Heap) (a : Nat) (line : Option Sl) (s : Scanner σ) : Prop where
  ge : 7 ≤ a
  glob : GlobU h
  fresh : Fresh 7 line
  scan : ∃ pos, ScanAt h a id pos line ∧ Scans m id pos read s

/-- The loop, from a Scanner at address `a`. -/
theorem takeTests_spec {σ : Type} (m : Machine) (hW : 32 ≤ m.W) (id : Nat) (read : Reader σ) : ∀ (n : Nat) (s : Scanner σ),
    match allTestEntries read n s with
    | .ok (es, e) => ∃ b, ∀ L d k h a line, b ≤ L → b ≤ k → TestAt m id read h a line s →
        ∃ vs err h', takeTests (R m L (d + 3)) (testVal a) k h = .ok ((vs, err), h') ∧ TestError m e err ∧
          ForallTwo (fun v e => ∃ P, ValAt P h' v e) vs es ∧ Keeps a line h h'
    | .error p => p ≠ .outOfFuel → ∃ b, ∀ L d k h a line, b ≤ L → b ≤ k → TestAt m id read h a line s →
        takeTests (R m L (d + 3)) (testVal a) k h = .error (.panic p) := by
  intro n
  induction n with
  | zero => intro s hp; exact absurd rfl hp
  | succ n ih =>
    intro s
    have hnx := fun L d h a pos line hn hs g hf hS => NextTestEntry_spec m hW L d a id read (n + 1) pos s h line hn hs g hf hS
    rw [allTestEntries]
    rcases hq : NextTestEntry read (n + 1) s with p | ⟨e | e, s'⟩
    · simp only [hq] at hnx
      intro hp
      refine ⟨n + 1, fun L d k h a line hL hk hl => ?_⟩
      obtain ⟨pos, hs, hS⟩ := hl.scan
      obtain ⟨k, rfl⟩ : ∃ j, k = j + 1 := ⟨k - 1, by omega⟩
      rw [takeTests, bind_apply, hnx L d h a pos line hL hs hl.glob hl.fresh hS hp]
      rfl
    · simp only [hq] at hnx
      refine ⟨n + 1, fun L d k h a line hL hk hl => ?_⟩
      obtain ⟨pos, hs, hS⟩ := hl.scan
      obtain ⟨k, rfl⟩ : ∃ j, k = j + 1 := ⟨k - 1, by omega⟩
      obtain ⟨h', line', pos', vs, h1, rfl, h2, h3, -⟩ := hnx L d h a pos line hL hs hl.glob hl.fresh hS
      refine ⟨[], errOf m e, h', ?_, nextTest_err m read _ _ _ _ hq, .nil, h3⟩
      rw [takeTests, bind_apply, h1, bindR_ok]
      rfl
    · simp only [hq] at hnx
      have step : ∀ L d h a line, n + 1 ≤ L → TestAt m id read h a line s → ∃ h1 v line', R m L (d + 3) (.method (testVal a) (name! "NextEntry") []) h = .ok ([v, .err none], h1) ∧
          ValAt (fun b => b = a ∨ ∃ s, line' = some s ∧ b = s.a) h1 v e ∧ TestAt m id read h1 a line' s' ∧ Keeps a line h h1 ∧ Fresh h.length line' := by
        intro L d h a line hL hl
        obtain ⟨pos, hs, hS⟩ := hl.scan
        obtain ⟨h', line', pos', vs, h1, ⟨oIn, oW, ws, rfl, N', hN, hE, hN'⟩, hsc, hk, hfr, hS'⟩ := hnx L d h a pos line hL hs hl.glob hl.fresh hS
        have h7 := hl.glob.len
        have ha := lt_of_some hs.obj
        have g' : GlobU h' := hl.glob.keep fun b b1 b2 => hk.keep b (by omega) (by have := hl.ge; omega) (fun s hs => by have := hl.fresh s hs; omega)
        refine ⟨h', _, line', h1, ⟨N', oIn, oW, ws, rfl, hE, ?_⟩, ⟨hl.ge, g', fun s hs => by have := hfr s hs; omega, pos', hsc, hS'⟩, hk, hfr⟩
        rintro b (rfl | ⟨s, hs, rfl⟩)
        · omega
        · exact hN' s hs
      have := ih s'
      simp only [bind, Except.bind]
      rcases hr : allTestEntries read n s' with p | ⟨es, er⟩
      · rw [hr] at this
        intro hp
        obtain ⟨b, hb⟩ := this hp
        refine ⟨b + (n + 1), fun L d k h a line hL hk hl => ?_⟩
        obtain ⟨k, rfl⟩ : ∃ j, k = j + 1 := ⟨k - 1, by omega⟩
        obtain ⟨h1, v, line', e1, e2, hl', -⟩ := step L d h a line (by omega) hl
        rw [takeTests, bind_apply, e1, bindR_ok]
        simp only [bind_apply]
        rw [hb L d k h1 a line' (by omega) (by omega) hl']
        rfl
      · rw [hr] at this
        obtain ⟨b, hb⟩ := this
        refine ⟨b + (n + 1), fun L d k h a line hL hk hl => ?_⟩
        obtain ⟨k, rfl⟩ : ∃ j, k = j + 1 := ⟨k - 1, by omega⟩
        obtain ⟨h1, v, line', e1, ⟨N, oIn, oW, ws, rfl, hE, hN⟩, hl', hk1, hf1⟩ := step L d h a line (by omega) hl
        obtain ⟨vs, err, h', e3, he, hv, hk2⟩ := hb L d k h1 a line' (by omega) (by omega) hl'
        refine ⟨_, err, h', ?_, he, .cons _ _ _ _ ⟨fun _ => False, N, oIn, oW, ws, rfl, hE.keep fun b b1 b2 => ?_, fun _ h => h.elim⟩ hv, hk1.trans hf1 hk2⟩
        · rw [takeTests, bind_apply, e1, bindR_ok]
          simp only [bind_apply]
          rw [e3, bindR_ok]
          rfl
        · refine hk2.keep b b2 ?_ fun s hs => ?_
          · have := hN a (.inl rfl); omega
          · have := hN s.a (.inr ⟨s, hs, rfl⟩); omega

/-- The whole session. -/
theorem testSession_spec {σ : Type} (m : Machine) (hW : 32 ≤ m.W) (id : Nat) (read : Reader σ) (n : Nat) (s : Scanner σ) (hS : Scans m id 0 read s) :
    match allTestEntries read n s with
    | .ok (es, e) => TestSees gentable m id (es.map fun e => testSeen e.Input e.WantSegments) (TestError m e)
    | .error p => p ≠ .outOfFuel → TestPanics gentable m id p := by
  have hl : TestAt m id read (heap0 ++ [.scan id 0 none]) 7 none s :=
    ⟨Nat.le_refl _, ⟨rfl, rfl, rfl, rfl, rfl⟩, (fun s hs => nomatch hs : Fresh 7 none), 0, ⟨rfl, fun s hs => nomatch hs⟩, hS⟩
  have e0 : ∀ L d, testSession gentable m L (d + 3) id [] = bindR (takeTests (R m L (d + 3)) (testVal 7) L (heap0 ++ [.scan id 0 none])) fun r h =>
      bindR (seeTests r.1 h) fun ts h => .ok ((ts, r.2), h) := by
    intro L d
    have e1 := NewTestDataScanner_eq m L (d + 2) heap0 id
    unfold R at e1
    simp only [testSession, bind_apply, init_gentable, bindR_ok]
    rw [e1]
    rfl
  have := takeTests_spec m hW id read n s
  split
  · next es e he =>
    simp only [he] at this
    obtain ⟨b, hb⟩ := this
    refine ⟨b + 3, fun L depth h1 h2 => ?_⟩
    obtain ⟨vs, err, h', e1, e2, e3, -⟩ := hb L (depth - 3) L (heap0 ++ [.scan id 0 none]) 7 none (by omega) (by omega) hl
    refine ⟨err, h', ?_, e2⟩
    rw [show depth = depth - 3 + 3 by omega, e0, e1, bindR_ok, seeTests_spec h' e3]
    rfl
  · next p he =>
    simp only [he] at this
    intro hp
    obtain ⟨b, hb⟩ := this hp
    refine ⟨b + 3, fun L depth h1 h2 => ?_⟩
    have e2 := hb L (depth - 3) L (heap0 ++ [.scan id 0 none]) 7 none (by omega) (by omega) hl
    rw [show depth = depth - 3 + 3 by omega, e0, e2]
    rfl

end Textseg.GoMem.TD
