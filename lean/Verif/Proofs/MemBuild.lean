import Verif.Proofs.MemCompact
/-!
# The code of `buildCompactedBlocks` does what the model says: index blocks
-/

namespace Textseg.GoMem
open Textseg.GoLang (TyId tyInt tyU8 Halt importName wrap)
set_option linter.unusedSimpArgs false

def thenOf : Stmt → Stmts
  | .ifThen _ _ b _ => b
  | _ => .nil

/-- The body of the loop in `buildCompactedBlocks`. -/
def buildLoop : Stmts := bodyOf (stmtAt 3 (thenOf (stmtAt 1 fn_build.body)))

/-- The variables of `buildCompactedBlocks` in the loop. -/
def envL (p q n : Nat) (v : UInt16) (src dst : Sl) (i : Nat) (mp mi : Nat) (sl nb : Sl) : Env :=
  (name! "newBlock", .slice noName tI (some nb)) :: (name! "srcBlock", .slice noName tI (some sl)) ::
    (name! "srcBlockIdx", .u16 tyU16 v) :: envB p q n src dst i mp mi

theorem buildStep (m : Machine) (hW : 32 ≤ m.W) (L e : Nat) (p q n : Nat) (hn : n < 100) (v : UInt16) (src dst : Sl) (j : Nat) (mp mi : Nat) (sl nb : Sl)
    (i : Nat) (h : Heap) :
    rangeBody (ctx m L (e + 4)) L sl (name! "i") 0 buildLoop i (envL p q (n + 1) v src dst j mp mi sl nb) h =
      bindR (R m L (e + 4) (.method (.ptr tTree p) (name! "buildCompactedBlocks") (argsB q n sl nb i mi mp)) h) fun _ h =>
        .ok (.next (envL p q (n + 1) v src dst j mp mi sl nb), h) := by
  have c1 := wrap_small m.W hW 1 (by omega) (by omega)
  have c2 := wrap_small m.W hW n (by omega) (by omega)
  have e1 : ((n + 1 : Nat) : Int) - 1 = n := by omega
  rw [rangeBody_apply]
  rcases hR : R m L (e + 4) (.method (.ptr tTree p) (name! "buildCompactedBlocks") (argsB q n sl nb i mi mp)) h with er | ⟨vs, h1⟩
  · simp only [argsB] at hR
    simp [mem_exec, buildLoop, fn_build, stmtAt, bodyOf, thenOf, rangeVars, envL, envB, argsB, c1, e1, c2, hR]
  · simp only [argsB] at hR
    simp [mem_exec, buildLoop, fn_build, stmtAt, bodyOf, thenOf, rangeVars, envL, envB, argsB, c1, e1, c2, hR]

theorem Built.write {hb h : Heap} {q y y'} (b : Built hb q y h y') {a : Nat} (ha : hb.length ≤ a) (o : Obj) : Built hb q y (h.set a o) y' :=
  { b with
    len := by rw [List.length_set]; exact b.len
    keep := fun c hc h1 h2 h3 h4 h5 => (set_other (by omega)).trans (b.keep c hc h1 h2 h3 h4 h5) }

theorem CRep.write {h q x y st} (c : CRep h q x y st) {a : Nat} {l : List Val} (ha : h[a]? = some (.arr l)) (h1 : a ≠ y.bI) (h2 : a ≠ y.bP) (h3 : a ≠ y.r0) (l' : List Val) :
    CRep (h.set a (.arr l')) q x y st :=
  { c with
    ret := (set_other (addr_ne ha c.ret (by intro h; cases h))).trans c.ret
    inds := (set_other h1).trans c.inds
    props := (set_other h2).trans c.props
    mapP := (set_other (addr_ne ha c.mapP (by intro h; cases h))).trans c.mapP
    mapI := (set_other (addr_ne ha c.mapI (by intro h; cases h))).trans c.mapI
    unshared := by
      intro hs
      obtain ⟨f1, f2, f3, f4, f5, T, tl, hT, hr⟩ := c.unshared hs
      exact ⟨f1, f2, f3, f4, f5, T, tl, hT, (set_other h3).trans hr⟩ }

theorem TreeAt.write {h p x t} (ht : TreeAt h p x t) {a : Nat} {l : List Val} (ha : h[a]? = some (.arr l)) (h1 : a ≠ x.aP) (h2 : a ≠ x.aI) (h3 : 2 ≤ a) (l' : List Val) :
    TreeAt (h.set a (.arr l')) p x t :=
  { ht with
    obj := (set_other (addr_ne ha ht.obj (by intro h; cases h))).trans ht.obj
    props := (set_other h1).trans ht.props
    inds := (set_other h2).trans ht.inds
    zero0 := (set_other (by omega)).trans ht.zero0
    zero1 := (set_other (by omega)).trans ht.zero1 }

theorem CRep.r0_lt {h q x y st} (c : CRep h q x y st) : y.r0 < h.length := by
  rcases hs : st.shared with _ | _
  · obtain ⟨_, _, _, _, _, T, tl, _, hr⟩ := c.unshared hs
    exact lt_of_some hr
  · rw [(c.shared hs).1]; exact lt_of_some c.inds

/-- What holds before and after an iteration of the loop in `buildCompactedBlocks`; `hb` is the memory before the call, and the array at `nb` is new. -/
structure LInv (hb : Heap) (y0 : CLoc) (p q : Nat) (x : Loc) (t : Gen.Tree) (sl : Sl) (S : List Val) (nb : Nat) (h : Heap) (y : CLoc) (st : Gen.CState) (D : List UInt16) : Prop where
  tree : TreeAt h p x t
  rep : CRep h q x y st
  built : Built hb q y0 h y
  fresh : hb.length ≤ nb
  r0 : y.r0 < hb.length
  aI : x.aI < hb.length
  aP : x.aP < hb.length
  two : 2 ≤ hb.length
  block : h[nb]? = some (.arr (D.map (.u16 tyU16)))
  len : D.length = 64
  bI : y.bI ≠ nb
  bP : y.bP ≠ nb
  src : h[sl.a]? = some (.arr S)
  srcI : sl.a ≠ y.bI
  srcP : sl.a ≠ y.bP
  srcN : sl.a ≠ nb

/-- An array which is none of those that are appended to stays as it is. -/
theorem Built.array {h q x y st h' y'} (c : CRep h q x y st) (b : Built h q y h' y') {a : Nat} {l : List Val} (ha : h[a]? = some (.arr l)) (h1 : a ≠ y.bI) (h2 : a ≠ y.bP) :
    h'[a]? = some (.arr l) :=
  (b.keep a (lt_of_some ha) (addr_ne ha c.ret (by intro h; cases h)) h1 h2 (addr_ne ha c.mapP (by intro h; cases h)) (addr_ne ha c.mapI (by intro h; cases h))).trans ha

theorem LInv.dst {hb y0 p q x t sl S nb h y st D} (I : LInv hb y0 p q x t sl S nb h y st D) {i : Nat} (hi : i < 64) :
    DstOK h q x y ⟨nb, 0, 64, 64⟩ i where
  off := rfl
  len := hi
  arr := fun h1 y' st' c' b => ⟨D, [], by rw [List.append_nil]; exact b.array I.rep I.block (Ne.symm I.bI) (Ne.symm I.bP), by rw [I.len]; exact hi⟩

/-- After the call in the loop. -/
theorem LInv.next {hb y0 p q x t sl S nb h y st D} (I : LInv hb y0 p q x t sl S nb h y st D) {i : Nat} {w : UInt16} {st' : Gen.CState} {res}
    (hw : Wrote res h q x y st' ⟨nb, 0, 64, 64⟩ i w) : ∃ h' y', res = .ok ([], h') ∧ LInv hb y0 p q x t sl S nb h' y' st' (D.set i w) := by
  obtain ⟨h1, y', D', tl, c, b, hD, hi, e⟩ := hw
  have hblock := b.array I.rep I.block (Ne.symm I.bI) (Ne.symm I.bP)
  have eD : D'.map (.u16 tyU16) ++ tl = D.map (Val.u16 tyU16) := by
    have := hD.symm.trans hblock
    simpa using this
  have e' : (D'.set i w).map (.u16 tyU16) ++ tl = (D.set i w).map (Val.u16 tyU16) := by
    rw [← set_map_append _ _ _ hi, eD, List.map_set]
  rw [e'] at e
  have hsrc := b.array I.rep I.src I.srcI I.srcP
  have hbI := b.bI
  have hbP := b.bP
  have hr0 := b.r0
  have l1 := lt_of_some I.block
  have l2 := lt_of_some I.src
  have i1 := I.fresh
  have i2 := I.r0
  have i3 := I.aI
  have i4 := I.aP
  have i5 := I.two
  have n1 : y'.bI ≠ nb := by have := I.bI; omega
  have n2 : y'.bP ≠ nb := by have := I.bP; omega
  refine ⟨_, y', e, {
    tree := (I.tree.built I.rep b).write hblock (by omega) (by omega) (by omega) _
    rep := c.write hblock (Ne.symm n1) (Ne.symm n2) (by omega) _
    built := (I.built.trans b).write I.fresh _
    fresh := i1
    r0 := by omega
    aI := i3
    aP := i4
    two := i5
    block := set_self hblock
    len := by rw [List.length_set]; exact I.len
    bI := n1
    bP := n2
    src := (set_other (Ne.symm I.srcN)).trans hsrc
    srcI := by have := I.srcI; omega
    srcP := by have := I.srcP; omega
    srcN := I.srcN }⟩

/-- The specification of `buildCompactedBlocks` at one level. -/
def BuildSpec (m : Machine) (L e n : Nat) (t : Gen.Tree) : Prop :=
  ∀ (p q : Nat) (src dst : Sl) (i : Nat) (y : CLoc) (pw iw : Gen.Which) (h : Heap) (v : UInt16) (x : Loc) (st : Gen.CState),
    TreeAt h p x t → CRep h q x y st → SrcAt h src i v → OKSrc t n v → DstOK h q x y dst i →
    Agrees (R m L e (.method (.ptr tTree p) (name! "buildCompactedBlocks") (argsB q n src dst i (y.addr pw) (y.addr iw))) h) h q x y dst i
      (Gen.build t n pw iw st v)

theorem buildLoop_spec (m : Machine) (hW : 32 ≤ m.W) (L e : Nat) (n : Nat) (hn : n < 100) (t : Gen.Tree) (ih : BuildSpec m L (e + 4) n t)
    (hb : Heap) (y0 : CLoc) (p q : Nat) (x : Loc) (sl : Sl) (S : List Val) (nb : Nat) (hsl : sl.len = 64)
    (v : UInt16) (src dst : Sl) (j : Nat) (pw iw : Gen.Which) (vs : List UInt16) :
    ∀ (i : Nat) (h : Heap) (y : CLoc) (st : Gen.CState) (pre post : List UInt16), LInv hb y0 p q x t sl S nb h y st (pre ++ post) → pre.length = i → post.length = vs.length →
    (∀ k w, vs[k]? = some w → S[sl.off + (i + k)]? = some (Val.u16 tyU16 w) ∧ OKSrc t n w) →
    match Gen.fillBlock (Gen.build t n iw pw) st vs with
    | .ok (st', ws) => ∃ h' y', rangeN (rangeBody (ctx m L (e + 4)) L sl (name! "i") 0 buildLoop) vs.length i
          (envL p q (n + 1) v src dst j (y.addr pw) (y.addr iw) sl ⟨nb, 0, 64, 64⟩) h =
        .ok (.next (envL p q (n + 1) v src dst j (y.addr pw) (y.addr iw) sl ⟨nb, 0, 64, 64⟩), h') ∧ LInv hb y0 p q x t sl S nb h' y' st' (pre ++ ws)
    | .error _ => ∃ er, rangeN (rangeBody (ctx m L (e + 4)) L sl (name! "i") 0 buildLoop) vs.length i
          (envL p q (n + 1) v src dst j (y.addr pw) (y.addr iw) sl ⟨nb, 0, 64, 64⟩) h = .error (.panic er) := by
  induction vs with
  | nil =>
    intro i h y st pre post I _ hpost _
    obtain rfl : post = [] := List.eq_nil_of_length_eq_zero hpost
    exact ⟨h, y, rfl, I⟩
  | cons v0 vs ihv =>
    intro i h y st pre post I hpre hpost hvs
    obtain ⟨hS, hok⟩ := hvs 0 v0 rfl
    have hi : i < 64 := by
      have := I.len
      rw [List.length_append, hpost] at this
      simp at this; omega
    have hcall := ih p q sl ⟨nb, 0, 64, 64⟩ i y iw pw h v0 x st I.tree I.rep ⟨by omega, S, I.src, hS⟩ hok (I.dst hi)
    rw [List.length_cons, rangeN_succ, buildStep m hW L e p q n hn]
    rw [Gen.fillBlock]
    rcases hm : Gen.build t n iw pw st v0 with er | ⟨st', w⟩
    · rw [hm] at hcall
      obtain ⟨e', he⟩ := hcall
      rw [he]
      exact ⟨e', rfl⟩
    · rw [hm] at hcall
      obtain ⟨h', y', he, I'⟩ := I.next hcall
      rw [he]
      simp only [bindR_ok, rangeNext, bind, Except.bind]
      obtain ⟨o, post, rfl⟩ : ∃ o l, post = o :: l := by
        cases post with
        | nil => simp at hpost
        | cons o l => exact ⟨o, l, rfl⟩
      have eD : (pre ++ o :: post).set i w = (pre ++ [w]) ++ post := by
        rw [List.set_append_right _ _ (by omega), hpre, Nat.sub_self]; simp
      rw [eD] at I'
      have ea : ∀ w, y'.addr w = y.addr w := by
        intro w
        exact (I'.built.addr w).trans (I.built.addr w).symm
      have := ihv (i + 1) h' y' st' (pre ++ [w]) post I' (by simp [hpre]) (by simpa using hpost)
        (fun k u hk => by
          have := hvs (k + 1) u hk
          rw [show i + 1 + k = i + (k + 1) by omega]
          exact this)
      rw [ea, ea] at this
      split at this <;> simp_all
/-- What follows the loop in `buildCompactedBlocks`. -/
def indexRest (m : Machine) (L e : Nat) (res : Except Halt (Out × Heap)) : Except Halt (List Val × Heap) :=
  bindR (bindR (bindR (bindR res (andThen (ctx m L (e + 4)) L 9 (dropS 4 (thenOf (stmtAt 1 fn_build.body))))) fun o h => .ok (leave 9 o, h))
    (andThen (ctx m L (e + 4)) L 0 (dropS 2 fn_build.body))) (returned (ctx m L (e + 4)) [])

theorem indexHead_zero (m : Machine) (hW : 32 ≤ m.W) (L e : Nat) (p q n : Nat) (src dst : Sl) (i : Nat) (mp mi : Nat) (h : Heap)
    (S : List Val) (hS : h[src.a]? = some (.arr S)) (hi : i < src.len) (hv : S[src.off + i]? = some (.u16 tyU16 0)) :
    R m L (e + 5) (.method (.ptr tTree p) (name! "buildCompactedBlocks") (argsB q (n + 1) src dst i mp mi)) h =
      indexRest m L e (rangeN (rangeBody (ctx m L (e + 4)) L ⟨h.length, 0, 64, 64⟩ (name! "i") 0 buildLoop) 64 0
        (envL p q (n + 1) 0 src dst i mp mi ⟨h.length, 0, 64, 64⟩ ⟨h.length + 1, 0, 64, 64⟩)
        (h ++ [Obj.arr (List.replicate 64 (Val.u16 tyU16 0)), Obj.arr (List.replicate 64 (Val.u16 tyU16 0))])) := by
  rw [R_build]
  have c0 := wrap_small m.W hW 0 (by omega) (by omega)
  have c1 := wrap_small m.W hW 64 (by omega) (by omega)
  have hle := loadElem_some hS hv
  have pos := fun h => @position_ok h src i hi
  have hn0 : (0 : Int) < (n : Int) + 1 := by omega
  simp [mem_exec, fn_build, indexRest, envL, buildLoop, thenOf, bodyOf, stmtAt, dropS, envB, argsB, hle, pos, c0, c1, makeOf, hn0, -List.reduceReplicate]
  done

theorem indexHead_some (m : Machine) (hW : 32 ≤ m.W) (L e : Nat) (p q n : Nat) (src dst : Sl) (i : Nat) (mp mi : Nat) (h : Heap) (x : Loc) (t : Gen.Tree)
    (ht : TreeAt h p x t) (v : UInt16) (s : Nat) (hv0 : v ≠ 0)
    (S : List Val) (hS : h[src.a]? = some (.arr S)) (hi : i < src.len) (hv : S[src.off + i]? = some (.u16 tyU16 v))
    (hs : (v <<< 6).toNat = s) (hs' : (v <<< 6 + 64).toNat = s + 64) (hc : s + 64 ≤ x.capI) :
    R m L (e + 5) (.method (.ptr tTree p) (name! "buildCompactedBlocks") (argsB q (n + 1) src dst i mp mi)) h =
      indexRest m L e (rangeN (rangeBody (ctx m L (e + 4)) L ⟨x.aI, s, 64, x.capI - s⟩ (name! "i") 0 buildLoop) 64 0
        (envL p q (n + 1) v src dst i mp mi ⟨x.aI, s, 64, x.capI - s⟩ ⟨h.length, 0, 64, 64⟩)
        (h ++ [Obj.arr (List.replicate 64 (Val.u16 tyU16 0))])) := by
  rw [R_build]
  have c0 := wrap_small m.W hW 0 (by omega) (by omega)
  have c1 := wrap_small m.W hW 64 (by omega) (by omega)
  have hle := loadElem_some hS hv
  have pos := fun h => @position_ok h src i hi
  have hn0 : (0 : Int) < (n : Int) + 1 := by omega
  have hb := load_some ht.obj
  simp only [treeFields] at hb
  have hv0' : (v == 0) = false := by simp [hv0]
  have h1 : (0 : Int) ≤ (s : Int) ∧ (s : Int) ≤ (s : Int) + 64 ∧ (s : Int) + 64 ≤ x.capI := by omega
  have h2 : ((s : Int) + 64 - s).toNat = 64 := by omega
  simp [mem_exec, fn_build, indexRest, envL, buildLoop, thenOf, bodyOf, stmtAt, dropS, envB, argsB, hle, pos, c0, c1, makeOf, hn0, hv0', hb, hs, hs', h1, h2, -List.reduceReplicate]
  done
theorem indexTail (m : Machine) (hW : 32 ≤ m.W) (L e : Nat) (p q n : Nat) (src dst : Sl) (i : Nat) (y0 y : CLoc) (pw iw : Gen.Which) (hb h : Heap) (v : UInt16) (sl : Sl)
    (S : List Val) (x : Loc) (t : Gen.Tree) (st : Gen.CState) (nb : Nat) (ws : List UInt16) (I : LInv hb y0 p q x t sl S nb h y st ws) (hd : DstOK hb q x y0 dst i) :
    Agrees (indexRest m L e (.ok (.next (envL p q (n + 1) v src dst i (y0.addr pw) (y0.addr iw) sl ⟨nb, 0, 64, 64⟩), h))) hb q x y0 dst i
      (match (st.getMap iw).get (keyBytes ws) with
      | some i => .ok (st, i)
      | none => .ok ((st.appendIndices ws).putMap iw (keyBytes ws) (UInt16.ofNat (st.indices.length >>> 6)), UInt16.ofNat (st.indices.length >>> 6))) := by
  obtain ⟨da, doff, dlen, dcap⟩ := dst
  obtain rfl : doff = 0 := hd.off
  have hlen := I.len
  have hk := indexKey_spec m hW L (e + 1) h ⟨nb, 0, 64, 64⟩ _ ws I.block (by rw [List.drop_zero, List.take_of_length_le (by simp [hlen])]) hlen rfl
  have bp := Built.push h q y (.arr ((keyBytes ws).map (.u8 tyU8)))
  have c := I.rep.push (.arr ((keyBytes ws).map (.u8 tyU8)))
  have ht := I.tree.built I.rep bp
  have hblock := bp.array I.rep I.block (Ne.symm I.bI) (Ne.symm I.bP)
  have b0 := I.built.trans bp
  generalize h ++ [.arr ((keyBytes ws).map (.u8 tyU8))] = hh at *
  have hm := loadMap_vals (c.map iw) (keyBytes ws)
  have ea := b0.addr iw
  rw [ea] at hm
  have pos := fun h => @position_ok h ⟨da, 0, dlen, dcap⟩ i hd.len
  rcases hg : (st.getMap iw).get (keyBytes ws) with _ | v'
  · rw [hg] at hm
    show Wrote _ _ _ _ _ _ _ _ _
    obtain ⟨h1, h2, h3, a1, cap1, y', happ, hret1, hh2, hh3, c3, b3⟩ := c.addIndices m ht iw (keyBytes ws) ws (by intro h; rw [h] at hlen; simp at hlen)
    rw [ea] at hh3
    have hr := @readSlice_some hh ⟨nb, 0, 64, 64⟩ _ hblock
    rw [List.drop_zero, List.take_of_length_le (by simp [hlen])] at hr
    have hret := load_some c.ret
    obtain ⟨D, tl, hD, hi⟩ := hd.arr _ _ _ c3 (b0.trans b3)
    refine ⟨h3, y', D, tl, c3, b0.trans b3, hD, hi, ?_⟩
    have hld := loadElem_some (i := i) (v := .u16 tyU16 D[i]) hD (by rw [List.getElem?_append_left (by simpa using hi)]; simp)
    have hst := fun v => storeElem_some (v := v) (i := i) hD (by simp; omega)
    have hcv : UInt16.ofNat (((st.indices.length : Int) / 64).emod 65536).toNat = UInt16.ofNat (st.indices.length / 64) := u16_conv (st.indices.length / 64)
    rw [Nat.shiftRight_eq_div_pow] at *
    simp only [retFields] at hret hret1
    simp [mem_exec, fn_build, dropS, indexRest, thenOf, stmtAt, envL, envB, hk, hm, hret, hr, happ, hret1, hh2, hh3, hcv, pos, hld, hst, leave]
    rw [List.set_append_left _ _ (by simpa using hi)]
  · rw [hg] at hm
    show Wrote _ _ _ _ _ _ _ _ _
    obtain ⟨D, tl, hD, hi⟩ := hd.arr _ _ _ c b0
    refine ⟨hh, y, D, tl, c, b0, hD, hi, ?_⟩
    have hld := loadElem_some (i := i) (v := .u16 tyU16 D[i]) hD (by rw [List.getElem?_append_left (by simpa using hi)]; simp)
    have hst := fun v => storeElem_some (v := v) (i := i) hD (by simp; omega)
    simp [mem_exec, fn_build, dropS, indexRest, thenOf, stmtAt, envL, envB, hk, hm, pos, hld, hst, leave]
    rw [List.set_append_left _ _ (by simpa using hi)]

theorem indexKey_model {ws : List UInt16} (h : ws.length = 64) : Gen.indexBlockKey ws = .ok (keyBytes ws) := by
  simp only [Gen.indexBlockKey, h, ne_eq, not_true, if_false]
  rfl

theorem index_spec (m : Machine) (hW : 32 ≤ m.W) (L e n : Nat) (hn : n < 100) (t : Gen.Tree) (ih : BuildSpec m L (e + 4) n t) : BuildSpec m L (e + 5) (n + 1) t := by
  intro p q src dst i y pw iw h v x st ht c hs hok hd
  obtain ⟨hi, S, hS, hv⟩ := hs
  have i3 := lt_of_some ht.inds
  have i4 := lt_of_some ht.props
  have i5 := lt_of_some ht.zero1
  have i6 := lt_of_some c.inds
  have i7 := lt_of_some c.props
  have i8 := c.r0_lt
  by_cases h0 : v = 0
  · subst h0
    rw [indexHead_zero m hW L e p q n src dst i _ _ h S hS hi hv]
    have e2 : h ++ [Obj.arr (List.replicate 64 (Val.u16 tyU16 0)), Obj.arr (List.replicate 64 (Val.u16 tyU16 0))] =
      (h ++ [Obj.arr (List.replicate 64 (Val.u16 tyU16 0))]) ++ [Obj.arr (List.replicate 64 (Val.u16 tyU16 0))] := by simp
    have b1 := Built.push h q y (Obj.arr (List.replicate 64 (Val.u16 tyU16 0)))
    have c1 := c.push (Obj.arr (List.replicate 64 (Val.u16 tyU16 0)))
    have b2 := Built.push (h ++ [Obj.arr (List.replicate 64 (Val.u16 tyU16 0))]) q y (Obj.arr (List.replicate 64 (Val.u16 tyU16 0)))
    have c2 := c1.push (Obj.arr (List.replicate 64 (Val.u16 tyU16 0)))
    have l1 : (h ++ [Obj.arr (List.replicate 64 (Val.u16 tyU16 0))]).length = h.length + 1 := by simp
    have n1 : ((h ++ [Obj.arr (List.replicate 64 (Val.u16 tyU16 0))]) ++ [Obj.arr (List.replicate 64 (Val.u16 tyU16 0))])[h.length + 1]? = some (Obj.arr (List.replicate 64 (Val.u16 tyU16 0))) := by
      rw [← l1]; exact push_new
    have n2 : ((h ++ [Obj.arr (List.replicate 64 (Val.u16 tyU16 0))]) ++ [Obj.arr (List.replicate 64 (Val.u16 tyU16 0))])[h.length]? = some (Obj.arr (List.replicate 64 (Val.u16 tyU16 0))) := by
      rw [push_old (by omega)]; exact push_new
    rw [e2]
    generalize (h ++ [Obj.arr (List.replicate 64 (Val.u16 tyU16 0))]) ++ [Obj.arr (List.replicate 64 (Val.u16 tyU16 0))] = hh at *
    have I : LInv h y p q x t ⟨h.length, 0, 64, 64⟩ (List.replicate 64 (Val.u16 tyU16 0)) (h.length + 1) hh y st ([] ++ List.replicate 64 0) := {
      tree := ht.built c (b1.trans b2)
      rep := c2
      built := b1.trans b2
      fresh := by omega
      r0 := i8
      aI := i3
      aP := i4
      two := by omega
      block := by simpa using n1
      len := by simp
      bI := by omega
      bP := by omega
      src := n2
      srcI := by show h.length ≠ _; omega
      srcP := by show h.length ≠ _; omega
      srcN := by show h.length ≠ _; omega }
    have hl := buildLoop_spec m hW L e n hn t ih h y p q x ⟨h.length, 0, 64, 64⟩ _ (h.length + 1) rfl 0 src dst i pw iw (List.replicate 64 0) 0 hh y st [] _ I rfl (by simp)
      (by
        intro k w hk
        rw [List.getElem?_replicate] at hk
        split at hk
        · obtain rfl := Option.some.inj hk
          refine ⟨?_, OKSrc.zero t n⟩
          rw [List.getElem?_replicate, if_pos (by show 0 + (0 + k) < 64; omega)]
        · cases hk)
    rw [List.length_replicate] at hl
    simp only [Gen.build, Gen.srcBlock, if_true, bind, Except.bind]
    rcases hf : Gen.fillBlock (Gen.build t n iw pw) st (List.replicate 64 0) with er | ⟨st', ws⟩
    · rw [hf] at hl
      obtain ⟨er', hl⟩ := hl
      rw [hl]
      exact ⟨er', rfl⟩
    · rw [hf] at hl
      obtain ⟨h', y', hl, I'⟩ := hl
      rw [hl]
      simp only
      rw [indexKey_model (by simpa using I'.len)]
      simp only
      have := indexTail m hW L e p q n src dst i y y' pw iw h h' 0 _ _ x t st' _ _ I' hd
      simp only [List.nil_append] at this
      rcases hg : (st'.getMap iw).get (keyBytes ws) with _ | v'
      · rw [hg] at this; simp only; exact this
      · rw [hg] at this; simp only; exact this
  · obtain ⟨hlt, hle, hch⟩ := hok.resolve_left h0
    have e1 := u16_start v
    have e2 := u16_end v
    rw [Nat.mod_eq_of_lt (by omega)] at e1 e2
    rw [Nat.mod_eq_of_lt (by omega)] at e2
    generalize hs : 64 * v.toNat = s at *
    have hcap := ht.capI
    rw [indexHead_some m hW L e p q n src dst i _ _ h x t ht v s h0 S hS hi hv e1 e2 (by omega)]
    have b1 := Built.push h q y (Obj.arr (List.replicate 64 (Val.u16 tyU16 0)))
    have c1 := c.push (Obj.arr (List.replicate 64 (Val.u16 tyU16 0)))
    have n1 : (h ++ [Obj.arr (List.replicate 64 (Val.u16 tyU16 0))])[h.length]? = some (Obj.arr (List.replicate 64 (Val.u16 tyU16 0))) := push_new
    generalize h ++ [Obj.arr (List.replicate 64 (Val.u16 tyU16 0))] = hh at *
    have ht1 := ht.built c b1
    have I : LInv h y p q x t ⟨x.aI, s, 64, x.capI - s⟩ (t.indices.map (.u16 tyU16) ++ x.tI) h.length hh y st ([] ++ List.replicate 64 0) := {
      tree := ht1
      rep := c1
      built := b1
      fresh := by omega
      r0 := i8
      aI := i3
      aP := i4
      two := by omega
      block := by simpa using n1
      len := by simp
      bI := by omega
      bP := by omega
      src := ht1.inds
      srcI := Ne.symm c.neI.1
      srcP := Ne.symm c.neP.1
      srcN := by show x.aI ≠ _; omega }
    have hbl : ((t.indices.take (s + 64)).drop s).length = 64 := by simp; omega
    have hl := buildLoop_spec m hW L e n hn t ih h y p q x ⟨x.aI, s, 64, x.capI - s⟩ _ h.length rfl v src dst i pw iw ((t.indices.take (s + 64)).drop s) 0 hh y st [] _ I rfl
      (by rw [hbl]; simp)
      (by
        intro k w hk
        refine ⟨?_, hch w ?_⟩
        · have hk64 := lt_of_some hk
          rw [hbl] at hk64
          rw [List.getElem?_drop, List.getElem?_take, if_pos (by omega)] at hk
          show (t.indices.map (.u16 tyU16) ++ x.tI)[s + (0 + k)]? = _
          rw [Nat.zero_add, List.getElem?_append_left (by rw [List.length_map]; omega), List.getElem?_map, hk]; rfl
        · have := List.mem_of_getElem? hk
          rw [List.take_drop]
          exact this)
    rw [hbl] at hl
    simp only [Gen.build, Gen.srcBlock, if_neg h0, bind, Except.bind, Gen.goSlice, e1, e2]
    rw [if_pos (by omega)]
    simp only
    rcases hf : Gen.fillBlock (Gen.build t n iw pw) st ((t.indices.take (s + 64)).drop s) with er | ⟨st', ws⟩
    · rw [hf] at hl
      obtain ⟨er', hl⟩ := hl
      rw [hl]
      exact ⟨er', rfl⟩
    · rw [hf] at hl
      obtain ⟨h', y', hl, I'⟩ := hl
      rw [hl]
      simp only
      rw [indexKey_model (by simpa using I'.len)]
      simp only
      have := indexTail m hW L e p q n src dst i y y' pw iw h h' v _ _ x t st' _ _ I' hd
      simp only [List.nil_append] at this
      rcases hg : (st'.getMap iw).get (keyBytes ws) with _ | v'
      · rw [hg] at this; simp only; exact this
      · rw [hg] at this; simp only; exact this
theorem leaf_build (m : Machine) (hW : 32 ≤ m.W) (L e : Nat) (t : Gen.Tree) : BuildSpec m L (e + 4) 0 t :=
  fun p q src dst i y pw iw h v x st ht c hs hok hd => leaf_spec m hW L e p q src dst i y pw iw h v x t st ht c hs hok hd

theorem build_spec (m : Machine) (hW : 32 ≤ m.W) (L e : Nat) (t : Gen.Tree) : ∀ n, n < 100 → BuildSpec m L (e + n + 4) n t
  | 0, _ => leaf_build m hW L e t
  | n + 1, hn => index_spec m hW L (e + n) n (by omega) t (build_spec m hW L e t n (by omega))
end Textseg.GoMem
