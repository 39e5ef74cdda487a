import Verif.Proofs.MemTest2
/-!
# The code of `ucdparse.TestDataScanner.NextEntry` does what the model says: the segments
-/

namespace Textseg.GoMem.TD
open Textseg.GoLang (TyId tyInt tyU8 Halt importName wrap)
set_option linter.unusedSimpArgs false

/-- The state of the loop over the segments: the entry is at address `ae`, all arrays of the entry are at addresses from `N` on. -/
structure SegsInv (N : Nat) (h : Heap) (ae : Nat) (oIn oW : Option Sl) (ws : List (Option Sl)) (input : List UInt8) (segs : List (List UInt8)) : Prop where
  n0 : N ≤ ae
  obj : h[ae]? = some (.struct tTE (teFields oIn oW))
  inp : Grown h oIn (input.map (.u8 tyU8))
  want : Grown h oW (ws.map (.slice noName tB))
  len : ws.length = segs.length
  seg : ∀ (j : Nat) (o : Option Sl) (p : List UInt8), ws[j]? = some o → segs[j]? = some p → Grown h o (p.map (.u8 tyU8))
  inN : ∀ s, oIn = some s → N ≤ s.a ∧ s.a ≠ ae
  wN : ∀ s, oW = some s → N ≤ s.a ∧ s.a ≠ ae ∧ Off oIn s.a
  sN : ∀ o, o ∈ ws → ∀ s, o = some s → N ≤ s.a ∧ s.a ≠ ae ∧ Off oIn s.a ∧ Off oW s.a

/-- The addresses that the loop over the characters keeps. -/
def Kept (N aq : Nat) (oW : Option Sl) (ws : List (Option Sl)) (b : Nat) : Prop :=
  b < N ∨ b = aq ∨ (∃ s, oW = some s ∧ b = s.a) ∨ (∃ o, o ∈ ws ∧ ∃ s, o = some s ∧ b = s.a)

theorem SegsInv.segAt {N : Nat} {h : Heap} {ae : Nat} {oIn oW : Option Sl} {ws : List (Option Sl)} {input : List UInt8} {segs : List (List UInt8)}
    (hI : SegsInv N h ae oIn oW ws input segs) (o : Option Sl) (ho : o ∈ ws) : ∃ p : List UInt8, Grown h o (p.map (.u8 tyU8)) := by
  obtain ⟨j, hj⟩ := List.getElem?_of_mem ho
  have hlt : j < segs.length := by rw [← hI.len]; exact (List.getElem?_eq_some_iff.mp hj).1
  exact ⟨segs[j], hI.seg j o _ hj (List.getElem?_eq_getElem hlt)⟩

theorem SegsInv.start {N : Nat} {h : Heap} {ae : Nat} {oIn oW : Option Sl} {ws : List (Option Sl)} {input : List UInt8} {segs : List (List UInt8)}
    (hI : SegsInv N h ae oIn oW ws input segs) (ob : Obj) : CharsInv (Kept N h.length oW ws) (h ++ [ob]) ae oIn oW none input [] where
  lt := by
    have := lt_of_some hI.obj
    have := hI.n0
    rw [List.length_append, List.length_singleton]
    rintro b (hb | rfl | ⟨s, hs, rfl⟩ | ⟨o, ho, s, hs, rfl⟩)
    · omega
    · omega
    · have := hI.want.lt s hs; omega
    · obtain ⟨p, g⟩ := hI.segAt o ho
      have := g.lt s hs; omega
  obj := by rw [push_old (lt_of_some hI.obj)]; exact hI.obj
  inp := hI.inp.keep fun s hs => push_old (hI.inp.lt s hs)
  cur := rfl
  kae := by
    have := lt_of_some hI.obj
    have := hI.n0
    rintro (hb | hb | ⟨s, hs, hb⟩ | ⟨o, ho, s, hs, hb⟩)
    · omega
    · omega
    · exact (hI.wN s hs).2.1 hb.symm
    · exact (hI.sN o ho s hs).2.1 hb.symm
  kin := by
    intro b hb s hs
    have h1 := (hI.inN s hs).1
    have h2 := hI.inp.lt s hs
    rcases hb with hb | rfl | ⟨s', hs', rfl⟩ | ⟨o, ho, s', hs', rfl⟩
    · omega
    · omega
    · exact (hI.wN s' hs').2.2 s hs
    · exact (hI.sN o ho s' hs').2.2.1 s hs
  kcur := fun _ _ _ h => by cases h
  aein := fun s hs => (hI.inN s hs).2
  aecur := fun _ h => by cases h
  dis := fun _ _ _ h => by cases h

theorem zeroValue_slice (h : Heap) : zeroValue tBB h = .ok (.slice noName tB none, h) := rfl

section
variable {N aq : Nat} {h0 h : Heap} {ae : Nat} {oIn0 oIn oW oC : Option Sl} {ws : List (Option Sl)} {input0 input cur : List UInt8} {segs : List (List UInt8)}

/-- The state after the loop over the characters. -/
theorem SegsInv.next (hI : SegsInv N h0 ae oIn0 oW ws input0 segs) (hC : CharsInv (Kept N aq oW ws) h ae oIn oW oC input cur)
    (hk : ∀ b, Kept N aq oW ws b → b < h0.length → h[b]? = h0[b]?) : SegsInv N h ae oIn oW ws input segs where
  n0 := hI.n0
  obj := hC.obj
  inp := hC.inp
  want := hI.want.keep fun s hs => hk _ (.inr (.inr (.inl ⟨s, hs, rfl⟩))) (hI.want.lt s hs)
  len := hI.len
  seg := fun j o p hj hp => (hI.seg j o p hj hp).keep fun s hs =>
    hk _ (.inr (.inr (.inr ⟨o, List.mem_of_getElem? hj, s, hs, rfl⟩))) ((hI.seg j o p hj hp).lt s hs)
  inN := fun s hs => ⟨Nat.le_of_not_lt fun hl => hC.kin _ (.inl hl) s hs rfl, hC.aein s hs⟩
  wN := fun s hs => ⟨(hI.wN s hs).1, (hI.wN s hs).2.1, hC.kin _ (.inr (.inr (.inl ⟨s, hs, rfl⟩)))⟩
  sN := fun o ho s hs => ⟨(hI.sN o ho s hs).1, (hI.sN o ho s hs).2.1, hC.kin _ (.inr (.inr (.inr ⟨o, ho, s, hs, rfl⟩))), (hI.sN o ho s hs).2.2.2⟩

/-- `entry.WantSegments = append(entry.WantSegments, currentSeg)` -/
theorem SegsInv.add (m : Machine) (hI : SegsInv N h ae oIn oW ws input segs) (hC : CharsInv (Kept N aq oW ws) h ae oIn oW oC input cur) :
    ∃ oW' h', appendSlice m tBB oW [.slice noName tB oC] h = .ok (oW', h') ∧ h'[ae]? = some (.struct tTE (teFields oIn oW)) ∧
      SegsInv N (h'.set ae (.struct tTE (teFields oIn oW'))) ae oIn oW' (ws ++ [oC]) input (segs ++ [cur]) ∧
      (∀ b, b < N → (h'.set ae (.struct tTE (teFields oIn oW')))[b]? = h[b]?) ∧ h.length ≤ h'.length := by
  obtain ⟨oW', h', e1, g, hA⟩ := append_grown m tBB _ zeroValue_slice hI.want (xs := [.slice noName tB oC]) (by simp)
  have hae := lt_of_some hI.obj
  have hn := hI.n0
  have offae : Off oW ae := fun s hs => (hI.wN s hs).2.1
  have obj' : h'[ae]? = some (.struct tTE (teFields oIn oW)) := by rw [hA.keep ae hae offae]; exact hI.obj
  have cW : ∀ s, oC = some s → Off oW s.a := fun s hs t ht e => hC.kcur t.a (.inr (.inr (.inl ⟨t, ht, rfl⟩))) s hs e.symm
  have cN : ∀ s, oC = some s → N ≤ s.a := fun s hs => Nat.le_of_not_lt fun hl => hC.kcur _ (.inl hl) s hs rfl
  have iW : ∀ s, oIn = some s → Off oW s.a := fun s hs t ht e => (hI.wN t ht).2.2 s hs e.symm
  have keep : ∀ b, b < h.length → Off oW b → b ≠ ae → (h'.set ae (.struct tTE (teFields oIn oW')))[b]? = h[b]? := fun b hb ho hne => by
    rw [set_other (Ne.symm hne), hA.keep b hb ho]
  refine ⟨oW', h', e1, obj', ⟨hn, set_self obj', ?_, ?_, ?_, ?_, hI.inN, ?_, ?_⟩, ?_, hA.len⟩
  · exact hI.inp.keep fun s hs => keep _ (hI.inp.lt s hs) (iW s hs) (hI.inN s hs).2
  · rw [List.map_append]
    exact g.keep fun s hs => set_other (Ne.symm (hA.off hae offae s hs))
  · simp [hI.len]
  · intro j o p hj hp
    by_cases hlt : j < ws.length
    · rw [List.getElem?_append_left hlt] at hj
      rw [List.getElem?_append_left (by rw [← hI.len]; exact hlt)] at hp
      have hg := hI.seg j o p hj hp
      have hm := List.mem_of_getElem? hj
      exact hg.keep fun s hs => keep _ (hg.lt s hs) (hI.sN o hm s hs).2.2.2 (hI.sN o hm s hs).2.1
    · rw [List.getElem?_append_right (by omega)] at hj
      rw [List.getElem?_append_right (by rw [← hI.len]; omega)] at hp
      rw [hI.len] at hj
      rcases hx : j - segs.length with _ | k
      · rw [hx] at hj hp
        cases hj; cases hp
        exact hC.cur.keep fun s hs => keep _ (hC.cur.lt s hs) (cW s hs) (hC.aecur s hs)
      · rw [hx] at hj
        simp at hj
  · intro s hs
    have h1 := hA.off hae offae s hs
    rcases hA.addr s hs with ⟨s', hs', e⟩ | hl
    · rw [← e]; exact hI.wN s' hs'
    · refine ⟨by omega, h1, fun t ht => ?_⟩
      have := hI.inp.lt t ht
      omega
  · intro o ho s hs
    rcases List.mem_append.mp ho with ho | ho
    · obtain ⟨p, g'⟩ := hI.segAt o ho
      obtain ⟨a1, a2, a3, a4⟩ := hI.sN o ho s hs
      exact ⟨a1, a2, a3, hA.off (g'.lt s hs) a4⟩
    · simp only [List.mem_singleton] at ho
      subst ho
      refine ⟨cN s hs, hC.aecur s hs, fun t ht e => hC.dis t ht s hs e.symm, hA.off (hC.cur.lt s hs) (cW s hs)⟩
  · intro b hb
    exact keep b (by omega) (fun s hs => by have := (hI.wN s hs).1; omega) (by omega)
end

@[mem_exec ↓] theorem evalMulti_appendOne (c : Ctx) (env : Env) (h : Heap) (args : Exprs) (he : (Env.get (name! "append") env).isSome = false)
    (hf : (find c.pkg (name! "append") c.prog).isNone = true) : evalMulti c env (.call (.ident (name! "append")) args) h =
    bindR (evalArgs c env args h) fun vs h => appendOne c.m vs h := by
  have hs : ¬ ((Env.get (name! "append") env).isSome = true) := by rw [he]; exact Bool.false_ne_true
  rcases args with _ | ⟨e, es⟩
  · simp only [evalMulti, if_neg hs, hf, and_self, if_true]; rfl
  · cases e <;> (simp only [evalMulti, if_neg hs, hf, and_self, if_true]; rfl)
@[mem_exec] theorem assignTo_slice (W : Nat) (h : Heap) (o : Option Sl) : assignTo W tBB (.slice noName tB o) h = .ok (.slice noName tB o, h) := by
  simp only [assignTo]; rw [if_pos (by rfl)]; rfl

/-- The `if` after the loop over the characters. -/
theorem segs_if (m : Machine) (hW : 32 ≤ m.W) (L d : Nat) (ae ac : Nat) (vWs vRaw vSeg vCh : Val) {N aq : Nat} {h : Heap} {oIn oW oC : Option Sl} {ws : List (Option Sl)}
    {input cur : List UInt8} {segs : List (List UInt8)} (hI : SegsInv N h ae oIn oW ws input segs) (hC : CharsInv (Kept N aq oW ws) h ae oIn oW oC input cur) :
    ∃ h' oW' ws', exec (ctxT m L (d + 2)) L (stmtAt 3 segsBody) 5 (envC ae ac vWs vRaw vSeg vCh oC) h = .ok (.next (envC ae ac vWs vRaw vSeg vCh oC), h') ∧
      SegsInv N h' ae oIn oW' ws' input (if cur.length ≠ 0 then segs ++ [cur] else segs) ∧ (∀ b, b < N → h'[b]? = h[b]?) ∧ h.length ≤ h'.length := by
  have w0 := wrap_small m.W hW 0 (by omega) (by omega)
  have hc := hC.cur
  cases oC with
  | none =>
    have : cur = [] := List.map_eq_nil_iff.mp hc
    subst this
    refine ⟨h, oW, ws, ?_, by simpa using hI, fun _ _ => rfl, Nat.le_refl _⟩
    simp [mem_exec, segsBody, testBody, fn_NextTestEntry, stmtAt, loopBody, rangeBodyOf, envC, envE, w0]
  | some s =>
    obtain ⟨cap, tl, e1, e2, e3, e4⟩ := hc
    have hne : cur ≠ [] := fun h => e4 (by rw [h]; rfl)
    have hl : cur.length ≠ 0 := fun h => hne (List.length_eq_zero_iff.mp h)
    obtain ⟨oW', h', c1, ob, hI', hk, hlen⟩ := hI.add m hC
    refine ⟨h'.set ae (.struct tTE (teFields oIn oW')), oW', ws ++ [some s], ?_, by rw [if_pos hl]; exact hI', hk, by rw [List.length_set]; exact hlen⟩
    have ld := load_some hI.obj
    have ld' := load_some ob
    have hsl : s.len = cur.length := by rw [e1]; simp
    simp [mem_exec, segsBody, testBody, fn_NextTestEntry, stmtAt, loopBody, rangeBodyOf, envC, envE, w0, hsl, hl, ld, ld', loadStruct, appendOne, c1, teFields]

theorem segsBody_eq : segsBody = .cons (stmtAt 0 segsBody) (.cons (stmtAt 1 segsBody) (.cons (.range (name! "_") (name! "charHex") (.ident (name! "charsHex")) charsBody)
    (.cons (stmtAt 3 segsBody) .nil))) := rfl

/-- One segment. -/
theorem segs_step (m : Machine) (hW : 32 ≤ m.W) (L d : Nat) (ae ac : Nat) (vWs vRaw : Val) {N : Nat} {h : Heap} {oIn oW : Option Sl} {ws : List (Option Sl)}
    {input : List UInt8} {segs : List (List UInt8)} (hI : SegsInv N h ae oIn oW ws input segs) (g : GlobU h) (hN : 7 ≤ N) (q s : Sl) (i : Nat) (p : List UInt8) (v : List Val)
    (hq : h[q.a]? = some (.arr v)) (hv : v[q.off + i]? = some (.slice noName tB (some s))) (hp : BytesAt h (some s) p) (hsN : s.a < N)
    (ps : List (List UInt8)) (hps : bytesSplit p nonsplitMarker = .ok ps) :
    match parseChars ps input [] with
    | .error e => ∃ h', rangeBody (ctxT m L (d + 2)) L q (name! "_") (name! "wantSeg") segsBody i (envE ae ac vWs vRaw) h =
        .ok (.ret [.struct tTE (teFields none none), .err (some (errOf m e))], h') ∧ (∀ b, b < N → h'[b]? = h[b]?) ∧ h.length ≤ h'.length
    | .ok (input', cur) => ∃ h' oIn' oW' ws', rangeBody (ctxT m L (d + 2)) L q (name! "_") (name! "wantSeg") segsBody i (envE ae ac vWs vRaw) h =
        .ok (.next (envE ae ac vWs vRaw), h') ∧ SegsInv N h' ae oIn' oW' ws' input' (if cur.length ≠ 0 then segs ++ [cur] else segs) ∧
        (∀ b, b < N → h'[b]? = h[b]?) ∧ h.length ≤ h'.length := by
  have hae := lt_of_some hI.obj
  have hn := hI.n0
  obtain ⟨vs, c1, hpc, hvl⟩ := splitOf_spec hp g.nonsplit' (by decide) hps
  have e0 : exec (ctxT m L (d + 2)) L (stmtAt 0 segsBody) 5 ((name! "wantSeg", .slice noName tB (some s)) :: envE ae ac vWs vRaw) h =
      .ok (.next ((name! "charsHex", .slice noName tBB (some ⟨h.length, 0, ps.length, ps.length⟩)) :: (name! "wantSeg", .slice noName tB (some s)) :: envE ae ac vWs vRaw), h ++ [.arr vs]) := by
    simp [mem_exec, segsBody, testBody, fn_NextTestEntry, stmtAt, loopBody, rangeBodyOf, envE, c1]
  have e1 : ∀ h, exec (ctxT m L (d + 2)) L (stmtAt 1 segsBody) 5 ((name! "charsHex", .slice noName tBB (some ⟨h.length, 0, ps.length, ps.length⟩)) :: (name! "wantSeg", .slice noName tB (some s)) :: envE ae ac vWs vRaw) h =
      .ok (.next (envC ae ac vWs vRaw (.slice noName tB (some s)) (.slice noName tBB (some ⟨h.length, 0, ps.length, ps.length⟩)) none), h) := by
    intro h
    simp [mem_exec, segsBody, testBody, fn_NextTestEntry, stmtAt, loopBody, rangeBodyOf, envC, envE]
  have hloop := chars_loop m hW L d ae ac vWs vRaw (.slice noName tB (some s)) (.slice noName tBB (some ⟨h.length, 0, ps.length, ps.length⟩))
    ⟨h.length, 0, ps.length, ps.length⟩ s.a vs rfl (Kept N h.length oW ws) (.inr (.inl rfl)) (.inl hsN) oW ps 0 (h ++ [.arr vs]) oIn none input [] push_new
    (hpc.keep (push_old (by omega))) (hI.start (.arr vs))
  have el : ((name! "wantSeg", Val.slice noName tB (some s)) :: envE ae ac vWs vRaw).length = 5 := rfl
  have hk0 : ∀ b, b < h.length → (h ++ [.arr vs])[b]? = h[b]? := fun b hb => push_old hb
  have hl0 : (h ++ [Obj.arr vs]).length = h.length + 1 := by simp
  rw [rangeBody_apply, rangeVars_elem (name! "wantSeg") _ (by decide) (by intro _ _ h; cases h) hq hv, bindR_ok, el]
  have e2 : execs (ctxT m L (d + 2)) L segsBody 5 ((name! "wantSeg", .slice noName tB (some s)) :: envE ae ac vWs vRaw) h =
      bindR (rangeN (rangeBody (ctxT m L (d + 2)) L ⟨h.length, 0, ps.length, ps.length⟩ (name! "_") (name! "charHex") charsBody) ps.length 0
        (envC ae ac vWs vRaw (.slice noName tB (some s)) (.slice noName tBB (some ⟨h.length, 0, ps.length, ps.length⟩)) none) (h ++ [.arr vs]))
        (andThen (ctxT m L (d + 2)) L 5 (.cons (stmtAt 3 segsBody) .nil)) := by
    have e1' := e1 (h ++ [.arr vs])
    rw [segsBody_eq]
    simp [mem_exec, segsBody, testBody, fn_NextTestEntry, stmtAt, loopBody, rangeBodyOf, envC, envE, c1, extent]
  rw [e2]
  rcases hc : parseChars ps input [] with e | ⟨input', cur⟩
  · rw [hc] at hloop
    obtain ⟨h', f1, f2, f3⟩ := hloop
    rw [f1]
    exact ⟨h', rfl, fun b hb => by rw [f2 b (.inl hb), hk0 b (by omega)], by omega⟩
  · rw [hc] at hloop
    obtain ⟨h1, oIn1, oC1, f1, f2, f3, f4⟩ := hloop
    have hI1 : SegsInv N h1 ae oIn1 oW ws input' segs := hI.next f2 fun b hb hlt => by rw [f3 b hb, hk0 b hlt]
    obtain ⟨h2, oW2, ws2, k1, k2, k3, k4⟩ := segs_if m hW L d ae ac vWs vRaw (.slice noName tB (some s)) (.slice noName tBB (some ⟨h.length, 0, ps.length, ps.length⟩)) hI1 f2
    refine ⟨h2, oIn1, oW2, ws2, ?_, k2, fun b hb => by rw [k3 b hb, f3 b (.inl hb), hk0 b (by omega)], by omega⟩
    rw [f1, bindR_ok, andThen, execs_cons, k1]
    rfl

/-- The loop over the segments. -/
theorem segs_loop (m : Machine) (hW : 32 ≤ m.W) (L d : Nat) (ae ac : Nat) (vWs vRaw : Val) (N : Nat) (hN : 7 ≤ N) (q : Sl) (v : List Val) (hq0 : q.off = 0)
    (hqN : q.a < N) (A : Nat) (hA : A < N) : ∀ (ps : List (List UInt8)) (i : Nat) (h : Heap) (oIn oW : Option Sl) (ws : List (Option Sl)) (entry : TestDataEntry),
    h[q.a]? = some (.arr v) → Pieces h A v i ps → GlobU h → SegsInv N h ae oIn oW ws entry.Input entry.WantSegments →
    match parseSegs ps entry with
    | .error _ => False
    | .ok (.error e) => ∃ h', rangeN (rangeBody (ctxT m L (d + 2)) L q (name! "_") (name! "wantSeg") segsBody) ps.length i (envE ae ac vWs vRaw) h =
        .ok (.ret [.struct tTE (teFields none none), .err (some (errOf m e))], h') ∧ (∀ b, b < N → h'[b]? = h[b]?) ∧ h.length ≤ h'.length
    | .ok (.ok entry') => ∃ h' oIn' oW' ws', rangeN (rangeBody (ctxT m L (d + 2)) L q (name! "_") (name! "wantSeg") segsBody) ps.length i (envE ae ac vWs vRaw) h =
        .ok (.next (envE ae ac vWs vRaw), h') ∧ SegsInv N h' ae oIn' oW' ws' entry'.Input entry'.WantSegments ∧
        (∀ b, b < N → h'[b]? = h[b]?) ∧ h.length ≤ h'.length := by
  intro ps
  induction ps with
  | nil => intro i h oIn oW ws entry hq hp g hI; exact ⟨h, oIn, oW, ws, rfl, hI, fun _ _ => rfl, Nat.le_refl _⟩
  | cons p ps ih =>
    intro i h oIn oW ws entry hq hp g hI
    obtain ⟨s, hv, hsA, hb⟩ := hp 0 p rfl
    have hv : v[q.off + i]? = some (.slice noName tB (some s)) := by rw [hq0, Nat.zero_add]; exact hv
    obtain ⟨cs, hcs⟩ := bytesSplitLoop_total nonsplitMarker (by decide) (p.length + 1) p (by omega)
    have hstep := segs_step m hW L d ae ac vWs vRaw hI g hN q s i p v hq hv hb (by rw [hsA]; exact hA) cs hcs
    rw [List.length_cons, rangeN_succ, parseSegs]
    simp only [bytesSplit, hcs, bind, Except.bind]
    rcases hc : parseChars cs entry.Input [] with e | ⟨input', cur⟩
    · rw [hc] at hstep
      obtain ⟨h', f1, f2, f3⟩ := hstep
      rw [f1]
      exact ⟨h', rfl, f2, f3⟩
    · rw [hc] at hstep
      obtain ⟨h1, oIn1, oW1, ws1, f1, f2, f3, f4⟩ := hstep
      rw [f1, bindR_ok, rangeNext]
      have := ih (i + 1) h1 oIn1 oW1 ws1 ⟨input', if cur.length ≠ 0 then entry.WantSegments ++ [cur] else entry.WantSegments⟩
        (by rw [f3 _ hqN]; exact hq) (hp.tail.keep (f3 _ hA)) (g.keep fun a _ _ => f3 a (by omega)) f2
      simp only []
      rcases hr : parseSegs ps ⟨input', if cur.length ≠ 0 then entry.WantSegments ++ [cur] else entry.WantSegments⟩ with x | e | entry'
      · rw [hr] at this; exact this
      · rw [hr] at this
        obtain ⟨h', k1, k2, k3⟩ := this
        exact ⟨h', k1, fun b hb => by rw [k2 b hb, f3 b hb], by omega⟩
      · rw [hr] at this
        obtain ⟨h', oIn', oW', ws', k1, k2, k3, k4⟩ := this
        exact ⟨h', oIn', oW', ws', k1, k2, fun b hb => by rw [k3 b hb, f3 b hb], by omega⟩

end Textseg.GoMem.TD
