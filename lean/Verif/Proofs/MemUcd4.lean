import Verif.Proofs.MemUcd3
/-!
# The loop over the entries does what the model says
-/

namespace Textseg.GoMem
open Textseg.GoLang (TyId tyInt tyU8 Halt importName wrap)
open Textseg.Spec
set_option linter.unusedSimpArgs false

theorem stringsOf_map (l : List GoString) : stringsOf (l.map .str) = some l := by
  induction l with
  | nil => rfl
  | cons s l ih => rw [List.map_cons, stringsOf, ih]; rfl

theorem look_spec (m : Machine) (L d : Nat) (h : Heap) (e : Entry) (o : Option Sl) (hb : BytesAt h o e.Fields) (g : GlobU h) (s : Seen) (hs : SeenOf s e)
    (hL : e.Fields.length + 1 ≤ L) :
    ∃ h', look (mkCtx gentable m (R m L (d + 3)) 0 []) (R m L (d + 3)) (entryVal e.Start e.End o) h = .ok (s, h') ∧ h.length ≤ h'.length ∧
      (∀ a, a < h.length → h'[a]? = h[a]?) := by
  obtain ⟨ob, e1⟩ := FirstField_eq m L d h e.Start e.End o e.Fields hb g
  have hold : ∀ a, a < h.length → (h ++ [ob])[a]? = h[a]? := fun a ha => push_old ha
  obtain ⟨h1, h', e2, e3, e4, e5, e6⟩ := Collect_AllFields m L d (mkCtx gentable m (R m L (d + 3)) 0 []) (fun _ _ _ => rfl) (h ++ [ob]) e.Start e.End o e.Fields
    (hb.keep fun s hs => hold _ (by subst hs; obtain ⟨l, hl, _⟩ := hb; exact lt_of_some hl)) (g.keep fun a _ _ => hold a (by have := g.len; omega)) s.all hs.all hL
  have e7 := readSlice_some (s := ⟨(h ++ [ob]).length + 4, 0, s.all.length, s.all.length⟩) e4
  rw [List.drop_zero, List.take_of_length_le (by simp)] at e7
  refine ⟨h', ?_, by simp at e5; omega, fun a ha => by rw [e6 a (by simp; omega), hold a ha]⟩
  have f1 : fieldOf (entryVal e.Start e.End o) (name! "Start") h = .ok (.rune tyRune e.Start, h) := rfl
  have f2 : fieldOf (entryVal e.Start e.End o) (name! "End") h = .ok (.rune tyRune e.End, h) := rfl
  simp only [look, bind_apply, f1, f2, bindR_ok, e1, e2, single_one, e3, e7, stringsOf_map, pure_apply]
  obtain ⟨a, b, c, all⟩ := s
  obtain ⟨rfl, rfl, rfl, -⟩ := hs
  rfl

theorem allFields_total (f : List UInt8) : ∃ fs, allFields f = .ok fs := by
  obtain ⟨fs, h⟩ := fieldsText_exists f
  exact ⟨fs, allFields_eq h⟩

/-- A place where the loop may be. -/
structure LoopAt {σ : Type} (m : Machine) (id : Nat) (read : Reader σ) (h : Heap) (a : Nat) (s : Scanner σ) : Prop where
  ge : 7 ≤ a
  glob : GlobU h
  scan : ∃ pos line, ScanAt h a id pos line ∧ Fresh 7 line ∧ Scans m id pos read s

/-- The loop, from a Scanner at address `a`. -/
theorem lookAll_spec {σ : Type} (m : Machine) (id : Nat) (read : Reader σ) : ∀ (n : Nat) (s : Scanner σ),
    match allEntries read n s with
    | .ok (es, e) => ∃ b ss, ForallTwo SeenOf ss es ∧ ∀ L d k h a, b ≤ L → b ≤ k → LoopAt m id read h a s →
        ∃ h', lookAll (mkCtx gentable m (R m L (d + 3)) 0 []) (R m L (d + 3)) (scanVal a) k h = .ok ((ss, parseError m e), h')
    | .error p => p ≠ .outOfFuel → ∃ b, ∀ L d k h a, b ≤ L → b ≤ k → LoopAt m id read h a s →
        lookAll (mkCtx gentable m (R m L (d + 3)) 0 []) (R m L (d + 3)) (scanVal a) k h = .error (.panic p) := by
  intro n
  induction n with
  | zero => intro s hp; exact absurd rfl hp
  | succ n ih =>
    intro s
    have hnx := fun L d h a pos line hn hs g hf hS => NextEntry_spec m L d a id read (n + 1) pos s h line hn hs g hf hS
    rw [allEntries]
    rcases hq : NextEntry read (n + 1) s with p | ⟨e | e, s'⟩
    · simp only [hq] at hnx
      intro hp
      refine ⟨n + 1, fun L d k h a hL hk hl => ?_⟩
      obtain ⟨pos, line, hs, hf, hS⟩ := hl.scan
      obtain ⟨k, rfl⟩ : ∃ j, k = j + 1 := ⟨k - 1, by omega⟩
      rw [lookAll, bind_apply, hnx L d h a pos line hL hs hl.glob hf hS hp]
      rfl
    · simp only [hq] at hnx
      refine ⟨n + 1, [], .nil, fun L d k h a hL hk hl => ?_⟩
      obtain ⟨pos, line, hs, hf, hS⟩ := hl.scan
      obtain ⟨k, rfl⟩ : ∃ j, k = j + 1 := ⟨k - 1, by omega⟩
      obtain ⟨h', line', pos', vs, h1, hv, -⟩ := hnx L d h a pos line hL hs hl.glob hf hS
      cases hv
      refine ⟨h', ?_⟩
      rw [lookAll, bind_apply, h1, bindR_ok]
      rfl
    · simp only [hq] at hnx
      obtain ⟨fs, hfs⟩ := allFields_total e.Fields
      have hseen : SeenOf ⟨e.Start, e.End, firstString e.Fields, fs⟩ e := ⟨rfl, rfl, rfl, hfs⟩
      have step : ∀ L d h a, n + 1 + e.Fields.length ≤ L → LoopAt m id read h a s → ∃ vs h1 h2 v, R m L (d + 3) (.method (scanVal a) (name! "NextEntry") []) h = .ok (vs, h1) ∧
          vs = [v, .err none] ∧ look (mkCtx gentable m (R m L (d + 3)) 0 []) (R m L (d + 3)) v h1 = .ok (⟨e.Start, e.End, firstString e.Fields, fs⟩, h2) ∧
          LoopAt m id read h2 a s' := by
        intro L d h a hL hl
        obtain ⟨pos, line, hs, hf, hS⟩ := hl.scan
        obtain ⟨h', line', pos', vs, h1, ⟨f, rfl, hb, hp⟩, hsc, hk, hfr, hS'⟩ := hnx L d h a pos line (by omega) hs hl.glob hf hS
        have h7 := hl.glob.len
        have g' : GlobU h' := hl.glob.keep fun b b1 b2 => hk.keep b (by omega) (by have := hl.ge; omega) (fun s hs => by have := hf s hs; omega)
        obtain ⟨h2, h3, h4, h5⟩ := look_spec m L d h' e f hb g' _ hseen (by omega)
        refine ⟨_, h', h2, _, h1, rfl, h3, hl.ge, g'.keep fun b b1 b2 => h5 b (by have := hk.len; omega), pos', line', ⟨?_, ?_⟩, ?_, hS'⟩
        · rw [h5 a (lt_of_some hsc.obj)]; exact hsc.obj
        · intro s hs
          obtain ⟨l, hl⟩ := hsc.line s hs
          exact ⟨l, by rw [h5 _ (lt_of_some hl)]; exact hl⟩
        · intro s hs
          have := hfr s hs
          omega
      have := ih s'
      simp only [bind, Except.bind]
      rcases hr : allEntries read n s' with p | ⟨es, er⟩
      · rw [hr] at this
        intro hp
        obtain ⟨b, hb⟩ := this hp
        refine ⟨b + (n + 1 + e.Fields.length), fun L d k h a hL hk hl => ?_⟩
        obtain ⟨k, rfl⟩ : ∃ j, k = j + 1 := ⟨k - 1, by omega⟩
        obtain ⟨vs, h1, h2, v, e1, rfl, e2, hl'⟩ := step L d h a (by omega) hl
        rw [lookAll, bind_apply, e1, bindR_ok]
        simp only [bind_apply]
        rw [e2, bindR_ok, hb L d k h2 a (by omega) (by omega) hl']
        rfl
      · rw [hr] at this
        obtain ⟨b, ss, hss, hb⟩ := this
        refine ⟨b + (n + 1 + e.Fields.length), _, .cons _ _ _ _ hseen hss, fun L d k h a hL hk hl => ?_⟩
        obtain ⟨k, rfl⟩ : ∃ j, k = j + 1 := ⟨k - 1, by omega⟩
        obtain ⟨vs, h1, h2, v, e1, rfl, e2, hl'⟩ := step L d h a (by omega) hl
        obtain ⟨h', e3⟩ := hb L d k h2 a (by omega) (by omega) hl'
        refine ⟨h', ?_⟩
        rw [lookAll, bind_apply, e1, bindR_ok]
        simp only [bind_apply]
        rw [e2, bindR_ok, e3]
        rfl

/-- The whole session. -/
theorem ucdSession_spec {σ : Type} (m : Machine) (id : Nat) (read : Reader σ) (n : Nat) (s : Scanner σ) (hS : Scans m id 0 read s) :
    match allEntries read n s with
    | .ok (es, e) => ∃ ss, ForallTwo SeenOf ss es ∧ UcdSees gentable m id ss (parseError m e)
    | .error p => p ≠ .outOfFuel → UcdPanics gentable m id p := by
  have hl : LoopAt m id read (heap0 ++ [.scan id 0 none]) 7 s :=
    ⟨Nat.le_refl _, ⟨rfl, rfl, rfl, rfl, rfl⟩, 0, none, ⟨rfl, fun s hs => nomatch hs⟩, (fun s hs => nomatch hs : Fresh 7 none), hS⟩
  have e0 : ∀ L d, ucdSession gentable m L (d + 3) id [] =
      lookAll (mkCtx gentable m (R m L (d + 3)) 0 []) (R m L (d + 3)) (scanVal 7) L (heap0 ++ [.scan id 0 none]) := by
    intro L d
    have e1 := NewScanner_eq m L (d + 2) heap0 id
    unfold R at e1
    simp only [ucdSession, bind_apply, init_gentable, bindR_ok]
    rw [e1]
    rfl
  have := lookAll_spec m id read n s
  split
  · next es e he =>
    simp only [he] at this
    obtain ⟨b, ss, hss, hb⟩ := this
    refine ⟨ss, hss, b + 3, fun L depth h1 h2 => ?_⟩
    obtain ⟨h', e1⟩ := hb L (depth - 3) L (heap0 ++ [.scan id 0 none]) 7 (by omega) (by omega) hl
    refine ⟨h', ?_⟩
    rw [show depth = depth - 3 + 3 by omega, e0, e1]
  · next p he =>
    simp only [he] at this
    intro hp
    obtain ⟨b, hb⟩ := this hp
    refine ⟨b + 3, fun L depth h1 h2 => ?_⟩
    rw [show depth = depth - 3 + 3 by omega, e0]
    exact hb L (depth - 3) L (heap0 ++ [.scan id 0 none]) 7 (by omega) (by omega) hl

end Textseg.GoMem
