import Verif.Proofs.MemOps
/-!
# The code of `propertyBlockKey` and `indexBlockKey` does what the model says
-/

namespace Textseg.GoMem
open Textseg.GoLang (TyId tyInt tyU8 Halt importName wrap)
set_option linter.unusedSimpArgs false

theorem set_same {α : Type} {h : List α} {a : Nat} {o : α} (ha : h[a]? = some o) : h.set a o = h := by
  apply List.ext_getElem?
  intro i
  by_cases hi : a = i
  · subst hi; rw [List.getElem?_set_self (lt_of_some ha), ha]
  · rw [List.getElem?_set_ne hi]

theorem bytesOf_map (l : List UInt8) : bytesOf (l.map (.u8 tyU8)) = some l := by
  induction l with
  | nil => rfl
  | cons b l ih => simp [bytesOf, ih]

theorem propertyKey_spec (m : Machine) (hW : 32 ≤ m.W) (L d : Nat) (h : Heap) (s : Sl) (l : List Val) (bs : List UInt8)
    (hl : h[s.a]? = some (.arr l)) (hb : (l.drop s.off).take s.len = bs.map (.u8 tyU8)) :
    R m L (d + 3) (.func (name! "gentable") (name! "propertyBlockKey") [.slice noName tB (some s)]) h =
      if s.len = 64 then .ok ([.str bs], h) else .error (.panic (.explicit "incorrect property block size")) := by
  rw [R_propertyBlockKey]
  have hr := readSlice_some hl
  have w64 := wrap_small m.W hW 64 (by omega) (by omega)
  rw [hb] at hr
  by_cases h64 : s.len = 64
  · simp [mem_exec, fn_propertyBlockKey, h64, hr, bytesOf_map, w64]
  · have h64' : ¬ (s.len : Int) = 64 := by omega
    simp [mem_exec, fn_propertyBlockKey, h64, h64', hr, bytesOf_map, w64]
    rfl

/-- The body of the loop in `indexBlockKey`. -/
def keyLoop : Stmts := bodyOf (stmtAt 2 fn_indexBlockKey.body)

def envK (s : Sl) (a : Nat) : Env :=
  [(name! "bytes", .array tB a 128), (name! "block", .slice noName tI (some s))]

theorem keyStep_spec (m : Machine) (hW : 32 ≤ m.W) (L d : Nat) (h : Heap) (s : Sl) (a i : Nat) (S : List Val) (l : List UInt8) (v : UInt16)
    (hS : h[s.a]? = some (.arr S)) (hv : S[s.off + i]? = some (.u16 tyU16 v)) (ha : h[a]? = some (.arr (l.map (.u8 tyU8)))) (hll : l.length = 128) (hi : i < 64) :
    rangeBody (ctx m L (d + 2)) L s (name! "i") (name! "v") keyLoop i (envK s a) h =
      .ok (.next (envK s a), h.set a (.arr (((l.set (2 * i) v.toUInt8).set (2 * i + 1) (v >>> 8).toUInt8).map (.u8 tyU8)))) := by
  have w : ∀ i : Int, 0 ≤ i → i < 2147483648 → wrap m.W i = i := fun i => wrap_small m.W hW i
  have hle := loadElem_some hS hv
  have c1 := w 1 (by omega) (by omega)
  have c2 := w 2 (by omega) (by omega)
  have w1 : wrap m.W ((i : Int) * 2) = ((2 * i : Nat) : Int) := by rw [w _ (by omega) (by omega)]; omega
  generalize hk : 2 * i = k at *
  have w2 : wrap m.W ((k : Int) + 1) = ((k + 1 : Nat) : Int) := by rw [w _ (by omega) (by omega)]; omega
  generalize hk' : k + 1 = k' at *
  have p1 := fun h => @position_ok h ⟨a, 0, 128, 128⟩ k (by show k < 128; omega)
  have p2 := fun h => @position_ok h ⟨a, 0, 128, 128⟩ k' (by show k' < 128; omega)
  have s1 := fun v => storeElem_some (v := v) ha (i := k) (by rw [List.length_map]; omega)
  have s2 := fun v w => storeElem_some (v := w) (set_self (o' := .arr ((l.map (.u8 tyU8)).set k v)) ha) (i := k') (by rw [List.length_set, List.length_map]; omega)
  have l1 := @loadElem_some h a k _ (.u8 tyU8 l[k]) ha (by simp)
  have l2 := fun v => @loadElem_some (h.set a (.arr ((l.map (.u8 tyU8)).set k v))) a k' _ (.u8 tyU8 l[k']) (set_self ha)
    (by rw [List.getElem?_set_ne (by omega)]; simp)
  rw [rangeBody_apply]
  simp [mem_exec, keyLoop, fn_indexBlockKey, stmtAt, bodyOf, rangeVars, hle, envK, w1, w2, c1, c2, p1, p2, s1, s2, l1, l2]
  have e : UInt8.ofNat (v.toNat >>> 8 % 65536) = (v >>> 8).toUInt8 := by
    rw [← UInt8.toNat_inj]
    simp
  rw [e]

/-- What the loop in `indexBlockKey` stores. -/
def keyFold : Nat → List UInt16 → List UInt8 → List UInt8
  | _, [], l => l
  | i, v :: vs, l => keyFold (i + 1) vs ((l.set (2 * i) v.toUInt8).set (2 * i + 1) (v >>> 8).toUInt8)

def keyBytes (block : List UInt16) : List UInt8 := block.flatMap fun (v : UInt16) => [v.toUInt8, (v >>> 8).toUInt8]

theorem keyFold_eq (vs : List UInt16) : ∀ (i : Nat) (pre tl : List UInt8), pre.length = 2 * i → 2 * vs.length ≤ tl.length →
    keyFold i vs (pre ++ tl) = pre ++ keyBytes vs ++ tl.drop (2 * vs.length) := by
  induction vs with
  | nil => intro i pre tl _ _; simp [keyFold, keyBytes]
  | cons v vs ih =>
    intro i pre tl hp hl
    rcases tl with _ | ⟨a, _ | ⟨b, tl⟩⟩
    · simp at hl
    · simp at hl; omega
    · have e : ((pre ++ a :: b :: tl).set (2 * i) v.toUInt8).set (2 * i + 1) (v >>> 8).toUInt8 = (pre ++ [v.toUInt8, (v >>> 8).toUInt8]) ++ tl := by
        rw [← hp, List.set_append_right _ _ (by omega), List.set_append_right _ _ (by omega)]
        simp
      rw [keyFold, e, ih (i + 1) _ tl (by simp; omega) (by simp at hl; omega)]
      simp only [keyBytes, List.flatMap_cons, List.append_assoc, List.length_cons, List.cons_append, List.nil_append]
      rw [show 2 * (vs.length + 1) = 2 * vs.length + 1 + 1 by omega]
      rfl

theorem keyFold_length (vs : List UInt16) : ∀ (i : Nat) (l : List UInt8), (keyFold i vs l).length = l.length := by
  induction vs with
  | nil => intro i l; rfl
  | cons v vs ih => intro i l; rw [keyFold, ih]; simp

theorem keyLoop_spec (m : Machine) (hW : 32 ≤ m.W) (L d : Nat) (s : Sl) (a : Nat) (S : List Val) (hsa : s.a ≠ a) (vs : List UInt16) :
    ∀ (i : Nat) (h : Heap) (l : List UInt8), h[s.a]? = some (.arr S) → (∀ (j : Nat) (v : UInt16), vs[j]? = some v → S[s.off + (i + j)]? = some (Val.u16 tyU16 v)) →
    h[a]? = some (.arr (l.map (.u8 tyU8))) → l.length = 128 → i + vs.length ≤ 64 →
    rangeN (rangeBody (ctx m L (d + 2)) L s (name! "i") (name! "v") keyLoop) vs.length i (envK s a) h =
      .ok (.next (envK s a), h.set a (.arr ((keyFold i vs l).map (.u8 tyU8)))) := by
  induction vs with
  | nil =>
    intro i h l _ _ ha _ _
    rw [List.length_nil, rangeN_zero, keyFold]
    rw [set_same ha]
  | cons v vs ih =>
    intro i h l hS hv ha hl hi
    rw [List.length_cons, rangeN_succ, keyStep_spec m hW L d h s a i S l v hS (hv 0 v rfl) ha hl (by simp at hi; omega)]
    simp only [bindR_ok, rangeNext]
    rw [ih (i + 1) _ _ (by rw [set_other (Ne.symm hsa)]; exact hS) (by intro j w hj; rw [show i + 1 + j = i + (j + 1) by omega]; exact hv (j + 1) w hj) (set_self ha)
      (by simp [hl]) (by simp at hi; omega)]
    rw [keyFold, List.set_set]

theorem indexKey_spec (m : Machine) (hW : 32 ≤ m.W) (L d : Nat) (h : Heap) (s : Sl) (S : List Val) (vs : List UInt16)
    (hS : h[s.a]? = some (.arr S)) (hv : (S.drop s.off).take 64 = vs.map (.u16 tyU16)) (hl : vs.length = 64) (hs : s.len = 64) :
    R m L (d + 3) (.func (name! "gentable") (name! "indexBlockKey") [.slice noName tI (some s)]) h =
      .ok ([.str (keyBytes vs)], h ++ [.arr ((keyBytes vs).map (.u8 tyU8))]) := by
  rw [R_indexBlockKey]
  have w64 := wrap_small m.W hW 64 (by omega) (by omega)
  have w128 := wrap_small m.W hW 128 (by omega) (by omega)
  have hk := keyLoop_spec m hW L d s h.length S (by have := lt_of_some hS; omega) vs 0 (h ++ [.arr ((List.replicate 128 0).map (.u8 tyU8))]) (List.replicate 128 0)
    (by rw [push_old (lt_of_some hS)]; exact hS) (by
      intro j v hj
      have : ((S.drop s.off).take 64)[j]? = some (Val.u16 tyU16 v) := by rw [hv, List.getElem?_map, hj]; rfl
      rw [List.getElem?_take] at this
      split at this
      · rw [List.getElem?_drop] at this; rw [Nat.zero_add]; exact this
      · cases this) push_new (by simp) (by omega)
  rw [set_push, hl] at hk
  have e := keyFold_eq vs 0 [] (List.replicate 128 0) rfl (by simp; omega)
  rw [hl] at e
  simp only [List.nil_append, List.drop_replicate, Nat.sub_self, List.replicate_zero, List.append_nil] at e
  rw [e] at hk
  have hr := @readSlice_some (h ++ [.arr ((keyBytes vs).map (.u8 tyU8))]) ⟨h.length, 0, 128, 128⟩ _ push_new
  have hlen : (keyBytes vs).length = 128 := by rw [← e, keyFold_length]; simp
  simp only [List.drop_zero] at hr
  rw [List.take_of_length_le (by simp [hlen])] at hr
  simp only [keyLoop, fn_indexBlockKey, stmtAt, bodyOf, envK, List.map_replicate] at hk
  simp [mem_exec, fn_indexBlockKey, hs, w64, w128, hr, bytesOf_map, hk, -List.reduceReplicate]
  done
end Textseg.GoMem
