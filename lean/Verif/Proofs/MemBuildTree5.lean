import Verif.Proofs.MemBuildTree4
import Verif.Proofs.MemUcd4
/-!
# The code of `BuildRawPropertyTree` does what the model says: the second and the third file
-/

namespace Textseg.GoMem
open Textseg.GoLang (TyId tyInt tyU8 Halt importName wrap)
set_option linter.unusedSimpArgs false

theorem rest2_eq : rest2 = .cons (.define [name! "propName"] (.cons (.call (.sel (.ident (name! "entry")) (name! "FirstField")) .nil) .nil))
    (.cons (.define [name! "prop"] (.cons (.call (.sel (.ident (name! "charprops")) (name! "LookupEmojiProperty")) (.cons (.ident (name! "propName")) .nil)) .nil))
    (.cons (.ifThen .skip (.bin .eq (.ident (name! "prop")) (.num 0)) (.cons .cont .nil) .nil)
    (.cons (loopR (name! "Set")) .nil))) := rfl

theorem rest3_eq : rest3 = .cons (.define [name! "fields"] (.cons (.call (.sel (.ident (name! "slices")) (name! "Collect"))
      (.cons (.call (.sel (.ident (name! "entry")) (name! "AllFields")) .nil) .nil)) .nil))
    (.cons (.ifThen .skip (.bin .lor (.bin .lt (.call (.ident (name! "len")) (.cons (.ident (name! "fields")) .nil)) (.num 2))
      (.bin .ne (.index (.ident (name! "fields")) (.num 0)) (.str (name! "InCB")))) (.cons .cont .nil) .nil)
    (.cons (.define [name! "propName"] (.cons (.index (.ident (name! "fields")) (.num 1)) .nil))
    (.cons (.define [name! "prop"] (.cons (.call (.sel (.ident (name! "charprops")) (name! "LookupInCBProperty")) (.cons (.ident (name! "propName")) .nil)) .nil))
    (.cons (loopR (name! "BitwiseOr")) .nil)))) := rfl

open Textseg.Gen Textseg.Spec in
theorem rest2_spec (m : Machine) (hW : 32 ≤ m.W) : RestSpec m emojiEntry rest2 := by
  intro σ read e
  refine ⟨rangeCount e + 1, fun L d h a id p ae sc ac ar x t s o env hL he f hb hae => ?_⟩
  obtain ⟨ob, e1⟩ := FirstField_eq m L (d + 2) h e.Start e.End o e.Fields hb f.glob
  have hgr : ∀ b, b < h.length → (h ++ [ob])[b]? = h[b]? := fun b hb => push_old hb
  have e2 := LookupEmoji_eq m L (d + 2) (h ++ [ob]) (firstString e.Fields)
  have hld := load_some hae
  have her : EnvR ((name! "prop", .u8 tGCB (LookupEmojiProperty (firstString e.Fields))) :: (name! "propName", .str (firstString e.Fields)) ::
      (name! "err", .err none) :: (name! "entry", .cell tEntry ae) :: env) ae p tGCB (LookupEmojiProperty (firstString e.Fields)) :=
    ⟨rfl, he.tip, rfl, he.uint8⟩
  have hl := loopR_spec m hW L d read her (name! "Set") (fun r => .set r (LookupEmojiProperty (firstString e.Fields))) (fun r n h => bodySet_eq m L (d + 5) h her r n)
    e o a id env.length (h ++ [ob]) x t s hL (f.grow hgr) (by rw [hgr _ (lt_of_some hae)]; exact hae)
  rw [rest2_eq]
  unfold emojiEntry
  by_cases h0 : LookupEmojiProperty (firstString e.Fields) = 0
  · rw [if_pos h0]
    refine ⟨.cont ((name! "prop", .u8 tGCB (LookupEmojiProperty (firstString e.Fields))) :: (name! "propName", .str (firstString e.Fields)) ::
        (name! "err", .err none) :: (name! "entry", .cell tEntry ae) :: env), h ++ [ob], x, ?_, .inr ?_, f.grow hgr, Rest.grow (by simp) hgr⟩
    · unfold entryVal at e1
      unfold entryFields at hld
      simp [mem_exec, loadStruct, hld, e1, he.charprops, e2, u8Op, h0]
    · simp [mem_exec]
  · rw [if_neg h0]
    have e3 : execs (ctx m L (d + 5)) L rest2 env.length ((name! "err", .err none) :: (name! "entry", .cell tEntry ae) :: env) h =
      execs (ctx m L (d + 5)) L (.cons (loopR (name! "Set")) .nil) env.length ((name! "prop", .u8 tGCB (LookupEmojiProperty (firstString e.Fields))) :: (name! "propName", .str (firstString e.Fields)) ::
      (name! "err", .err none) :: (name! "entry", .cell tEntry ae) :: env) (h ++ [ob]) := by
      rw [rest2_eq]
      unfold entryVal at e1
      unfold entryFields at hld
      simp [mem_exec, loadStruct, hld, e1, he.charprops, e2, u8Op, h0]
    rw [rest2_eq] at e3
    rw [e3]
    have e4 : forRange (fun t r => t.Set r (LookupEmojiProperty (firstString e.Fields))) (rangeCount e) e.Start t =
      forRange (fun t r => runOp t (.set r (LookupEmojiProperty (firstString e.Fields)))) (rangeCount e) e.Start t := rfl
    rw [e4]
    rcases hr : forRange (fun t r => runOp t (.set r (LookupEmojiProperty (firstString e.Fields)))) (rangeCount e) e.Start t with q | t'
    · rw [hr] at hl
      obtain ⟨er, hl⟩ := hl
      exact ⟨er, by rw [execs_cons, hl]; rfl⟩
    · rw [hr] at hl
      obtain ⟨h', x', hl, f', r'⟩ := hl
      refine ⟨_, h', x', by rw [execs_cons, hl]; rfl, .inl ?_, f', (Rest.grow (by simp) hgr).trans r'⟩
      simp [mem_exec]

/-- `||` after its first operand. -/
def lorRest (y : M Val) : Val → Heap → Except Halt (Val × Heap)
  | .bool true, h => .ok (.bool true, h)
  | _, h => bindR (y h) fun w h => bindR (boolValue w h) fun b h => .ok (.bool b, h)
@[mem_exec ↓] theorem operator_lor (W : Nat) (h : Heap) (x y : M Val) : operator W .lor x y h = bindR (x h) (lorRest y) := by
  refine bindR_ext _ fun v h => ?_
  rcases v with _ | _ | _ | _ | _ | b <;> try rfl
  cases b <;> rfl
@[mem_exec] theorem lorRest_true (h : Heap) (y : M Val) : lorRest y (.bool true) h = .ok (.bool true, h) := rfl
@[mem_exec] theorem lorRest_false (h : Heap) (y : M Val) : lorRest y (.bool false) h = bindR (y h) fun w h => bindR (boolValue w h) fun b h => .ok (.bool b, h) := rfl

open Textseg.Gen Textseg.Spec in
theorem rest3_spec (m : Machine) (hW : 32 ≤ m.W) : RestSpec m dcpEntry rest3 := by
  intro σ read e
  obtain ⟨fs, hfs⟩ := allFields_total e.Fields
  refine ⟨rangeCount e + e.Fields.length + 1, fun L d h a id p ae sc ac ar x t s o env hL he f hb hae => ?_⟩
  obtain ⟨h1, h2, e1, e2, hfl, hlen, hgr⟩ := Collect_AllFields m L (d + 2) (ctx m L (d + 5)) (fun v args h => rfl) h e.Start e.End o e.Fields hb f.glob fs hfs (by omega)
  have hld := load_some hae
  have f2 := f.grow hgr
  have r2 : Rest a p h h2 := Rest.grow hlen hgr
  have w2 := wrap_small m.W hW 2 (by omega) (by omega)
  have w0 := wrap_small m.W hW 0 (by omega) (by omega)
  have w1 := wrap_small m.W hW 1 (by omega) (by omega)
  unfold entryVal at e1
  unfold entryFields at hld
  rw [rest3_eq]
  rcases fs with _ | ⟨f0, _ | ⟨f1, fs⟩⟩
  · have hd : dcpEntry t e = .ok t := by unfold dcpEntry; rw [hfs]; rfl
    rw [hd]
    refine ⟨.cont ((name! "fields", .slice noName .str (some ⟨h.length + 4, 0, 0, 0⟩)) :: (name! "err", .err none) :: (name! "entry", .cell tEntry ae) :: env), h2, x, ?_, .inr ?_, f2, r2⟩
    · simp [mem_exec, loadStruct, hld, e1, he.slices, he.len, e2, w2, intOp]
    · simp [mem_exec]
  · have hd : dcpEntry t e = .ok t := by unfold dcpEntry; rw [hfs]; rfl
    rw [hd]
    refine ⟨.cont ((name! "fields", .slice noName .str (some ⟨h.length + 4, 0, 1, 1⟩)) :: (name! "err", .err none) :: (name! "entry", .cell tEntry ae) :: env), h2, x, ?_, .inr ?_, f2, r2⟩
    · simp [mem_exec, loadStruct, hld, e1, he.slices, he.len, e2, w2, intOp]
    · simp [mem_exec]
  · have l0 : loadElem (h.length + 4) 0 h2 = .ok (.str f0, h2) := loadElem_some hfl rfl
    have l1 : loadElem (h.length + 4) 1 h2 = .ok (.str f1, h2) := loadElem_some hfl rfl
    have hn : ¬ ((fs.length : Int) + 1 + 1 < 2) := by omega
    have p0 : position (some ⟨h.length + 4, 0, fs.length + 1 + 1, fs.length + 1 + 1⟩) 0 h2 = .ok ((h.length + 4, 0), h2) :=
      position_ok (s := ⟨h.length + 4, 0, fs.length + 1 + 1, fs.length + 1 + 1⟩) (k := 0) h2 (by show 0 < fs.length + 1 + 1; omega)
    have p1 : position (some ⟨h.length + 4, 0, fs.length + 1 + 1, fs.length + 1 + 1⟩) 1 h2 = .ok ((h.length + 4, 1), h2) :=
      position_ok (s := ⟨h.length + 4, 0, fs.length + 1 + 1, fs.length + 1 + 1⟩) (k := 1) h2 (by show 1 < fs.length + 1 + 1; omega)
    have ht : textLine (name! "InCB") = str "InCB" := rfl
    by_cases hI : f0 = str "InCB"
    · have hd : dcpEntry t e = forRange (fun t r => runOp t (.bitwiseOr r (LookupInCBProperty f1))) (rangeCount e) e.Start t := by
        unfold dcpEntry; rw [hfs]; exact if_neg (fun h => h hI)
      rw [hd]
      have e4 := LookupInCB_eq m L (d + 2) h2 f1
      have her : EnvR ((name! "prop", .u8 tInCB (LookupInCBProperty f1)) :: (name! "propName", .str f1) ::
          (name! "fields", .slice noName .str (some ⟨h.length + 4, 0, fs.length + 1 + 1, fs.length + 1 + 1⟩)) ::
          (name! "err", .err none) :: (name! "entry", .cell tEntry ae) :: env) ae p tInCB (LookupInCBProperty f1) :=
        ⟨rfl, he.tip, rfl, he.uint8⟩
      have hl := loopR_spec m hW L d read her (name! "BitwiseOr") (fun r => .bitwiseOr r (LookupInCBProperty f1)) (fun r n h => bodyOr_eq m L (d + 5) h her r n)
        e o a id env.length h2 x t s (by omega) f2 (by rw [hgr _ (lt_of_some hae)]; exact hae)
      have e3 : execs (ctx m L (d + 5)) L rest3 env.length ((name! "err", .err none) :: (name! "entry", .cell tEntry ae) :: env) h =
        execs (ctx m L (d + 5)) L (.cons (loopR (name! "BitwiseOr")) .nil) env.length ((name! "prop", .u8 tInCB (LookupInCBProperty f1)) :: (name! "propName", .str f1) ::
          (name! "fields", .slice noName .str (some ⟨h.length + 4, 0, fs.length + 1 + 1, fs.length + 1 + 1⟩)) ::
          (name! "err", .err none) :: (name! "entry", .cell tEntry ae) :: env) h2 := by
        rw [rest3_eq]
        simp [mem_exec, loadStruct, hld, e1, he.slices, he.len, he.charprops, e2, e4, w2, w0, w1, intOp, hn, p0, l0, p1, l1, binary_str_ne, ht, hI]
      rw [rest3_eq] at e3
      rw [e3]
      rcases hr : forRange (fun t r => runOp t (.bitwiseOr r (LookupInCBProperty f1))) (rangeCount e) e.Start t with q | t'
      · rw [hr] at hl
        obtain ⟨er, hl⟩ := hl
        exact ⟨er, by rw [execs_cons, hl]; rfl⟩
      · rw [hr] at hl
        obtain ⟨h', x', hl, f', r'⟩ := hl
        refine ⟨_, h', x', by rw [execs_cons, hl]; rfl, .inl ?_, f', r2.trans r'⟩
        simp [mem_exec]
    · have hd : dcpEntry t e = .ok t := by unfold dcpEntry; rw [hfs]; exact if_pos hI
      rw [hd]
      refine ⟨.cont ((name! "fields", .slice noName .str (some ⟨h.length + 4, 0, fs.length + 1 + 1, fs.length + 1 + 1⟩)) :: (name! "err", .err none) :: (name! "entry", .cell tEntry ae) :: env), h2, x, ?_, .inr ?_, f2, r2⟩
      · simp [mem_exec, loadStruct, hld, e1, he.slices, he.len, e2, w2, w0, intOp, hn, p0, l0, binary_str_ne, ht, hI]
      · simp [mem_exec]

end Textseg.GoMem
