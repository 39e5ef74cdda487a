import Verif.Proofs.MemTest
/-!
# The code of `ucdparse.TestDataScanner.NextEntry` does what the model says: the characters of a segment
-/

namespace Textseg.GoMem.TD
open Textseg.GoLang (TyId tyInt tyU8 Halt importName wrap)
set_option linter.unusedSimpArgs false

/-- The context of ucdparse/testdata_scan.go -/
def ctxT (m : Machine) (L d : Nat) : Ctx := mkCtx gentable m (R m L d) (name! "ucdparse") fileTestdataScan.imports

def tTest : TyId := ⟨name! "ucdparse", name! "TestDataScanner"⟩
def tTE : TyId := ⟨name! "ucdparse", name! "TestDataEntry"⟩
/-- The element type of `[][]byte`. -/
abbrev tBB : GTy := .slice noName tB

/-- A `ucdparse.TestDataScanner` whose line Scanner is at address `a`. -/
def testVal (a : Nat) : Val := .struct tTest [(name! "lineScan", .ptr tyScanner a)]
/-- The fields of a `ucdparse.TestDataEntry`. -/
def teFields (oIn oW : Option Sl) : List (Nat × Val) := [(name! "Input", .slice noName tB oIn), (name! "WantSegments", .slice noName tBB oW)]

section
variable (m : Machine) (L d : Nat) (h : Heap)
@[mem_exec] theorem ctxT_m : (ctxT m L d).m = m := rfl
@[mem_exec] theorem ctxT_callMethod (v : Val) (x : Nat) (args : List Val) :
    (ctxT m L d).callMethod v x args h = R m L d (.method v x args) h := rfl
@[mem_exec] theorem ctxT_bytes : (ctxT m L d).imported (name! "bytes") = true := by kernel_rfl
@[mem_exec] theorem ctxT_fmt : (ctxT m L d).imported (name! "fmt") = true := by kernel_rfl
@[mem_exec] theorem ctxT_io : (ctxT m L d).imported (name! "io") = true := by kernel_rfl
@[mem_exec] theorem ctxT_strconv : (ctxT m L d).imported (name! "strconv") = true := by kernel_rfl
@[mem_exec] theorem ctxT_utf8 : (ctxT m L d).imported (name! "utf8") = true := by kernel_rfl
@[mem_exec] theorem ctxT_bufio : (ctxT m L d).imported (name! "bufio") = true := by kernel_rfl
@[mem_exec] theorem globalT_comment : globalOrPredeclared (ctxT m L (d + 1)) (name! "commentMarker") h = .ok (.slice noName tB (some ⟨2, 0, 1, 1⟩), h) := by kernel_rfl
@[mem_exec] theorem globalT_split : globalOrPredeclared (ctxT m L (d + 1)) (name! "splitMarker") h = .ok (.slice noName tB (some ⟨5, 0, 2, 2⟩), h) := by kernel_rfl
@[mem_exec] theorem globalT_nonsplit : globalOrPredeclared (ctxT m L (d + 1)) (name! "nonsplitMarker") h = .ok (.slice noName tB (some ⟨6, 0, 2, 2⟩), h) := by kernel_rfl
@[mem_exec] theorem globalT_nil : globalOrPredeclared (ctxT m L d) (name! "nil") h = .ok (.nil, h) := by kernel_rfl
@[mem_exec] theorem globalT_EOF : (ctxT m L (d + 1)).global (name! "io") (name! "EOF") h = .ok (.err (some (.io .eof)), h) := by kernel_rfl
@[mem_exec] theorem callNameT_string (v : Val) : callName (ctxT m L d) (name! "string") [v] h =
    bindR (convert m.W .str v h) fun v h => .ok ([v], h) := by kernel_rfl
@[mem_exec] theorem callNameT_rune (v : Val) : callName (ctxT m L d) (name! "rune") [v] h =
    bindR (convert m.W (.rune tyRune) v h) fun v h => .ok ([v], h) := by kernel_rfl
@[mem_exec] theorem callNameT_len (v : Val) : callName (ctxT m L d) (name! "len") [v] h = bindR (len v h) fun v h => .ok ([v], h) := by kernel_rfl
@[mem_exec] theorem findT_make : (find (ctxT m L d).pkg (name! "make") (ctxT m L d).prog).isNone = true := by kernel_rfl
@[mem_exec] theorem findT_append : (find (ctxT m L d).pkg (name! "append") (ctxT m L d).prog).isNone = true := by kernel_rfl
@[mem_exec] theorem callT_Cut (t t' : TyId) (s sep : Option Sl) :
    callQualified (ctxT m L d) (name! "bytes") (name! "Cut") [.slice t tB s, .slice t' tB sep] h = cutOf tB s sep h := by kernel_rfl
@[mem_exec] theorem callT_Split (t t' : TyId) (s sep : Option Sl) :
    callQualified (ctxT m L d) (name! "bytes") (name! "Split") [.slice t tB s, .slice t' tB sep] h = splitOf tB s sep h := by kernel_rfl
@[mem_exec] theorem callT_TrimSpace (t : TyId) (s : Option Sl) :
    callQualified (ctxT m L d) (name! "bytes") (name! "TrimSpace") [.slice t tB s] h = trimOf tB s h := by kernel_rfl
/-- What `strconv.ParseInt` returns. -/
def parseIntVal : Option Int → List Val
  | some n => [.wide tyI64 n, .err none]
  | none => [.wide tyI64 0, .err (some .syntax)]
@[mem_exec] theorem callT_ParseInt (s : GoString) :
    callQualified (ctxT m L d) (name! "strconv") (name! "ParseInt") [.str s, .const 16, .const 32] h = .ok (parseIntVal (ParseInt s), h) := by
  have e : callQualified (ctxT m L d) (name! "strconv") (name! "ParseInt") [.str s, .const 16, .const 32] h =
    (match ParseInt s with
      | some n => (pure [.wide tyI64 n, .err none] : M (List Val))
      | none => pure [.wide tyI64 0, .err (some .syntax)]) h := by kernel_rfl
  rw [e]
  cases ParseInt s <;> rfl
@[mem_exec] theorem callT_Errorf (s t : GoString) :
    callQualified (ctxT m L d) (name! "fmt") (name! "Errorf") [.str s, .str t] h = .ok ([.err (some (.text (m.sprintf [.str s, .str t])))], h) := by kernel_rfl
@[mem_exec] theorem callT_EncodeRune (t t' : TyId) (s : Option Sl) (r : Int32) :
    callQualified (ctxT m L d) (name! "utf8") (name! "EncodeRune") [.slice t (.u8 t') s, .rune tyRune r] h =
    bindR (writeBytes s (EncodeRune r) h) fun _ h => .ok ([.int tyInt (EncodeRune r).length], h) := by kernel_rfl
@[mem_exec] theorem resolveT_Scanner : resolve (ctxT m L d) (.name (name! "TestDataScanner")) h = .ok (.struct tTest, h) := by kernel_rfl
@[mem_exec] theorem resolveT_Entry : resolve (ctxT m L d) (.name (name! "TestDataEntry")) h = .ok (.struct tTE, h) := by kernel_rfl
@[mem_exec] theorem resolveT_error : resolve (ctxT m L d) (.name (name! "error")) h = .ok (.error, h) := by kernel_rfl
@[mem_exec] theorem resolveT_bytes : resolve (ctxT m L d) (.slice (.name (name! "byte"))) h = .ok (.slice noName tB, h) := by kernel_rfl
@[mem_exec] theorem compOfT_Entry (keyed : M (List (Nat × Val))) (args : M (List Val)) : compOf (ctxT m L d) (.name (name! "TestDataEntry")) keyed args h =
    bindR (keyed h) fun given h => litOf (ctxT m L d) tTE given h := by kernel_rfl
@[mem_exec] theorem litOfT_Entry0 : litOf (ctxT m L d) tTE [] h = .ok (.struct tTE (teFields none none), h) := by kernel_rfl
theorem R_NextTestEntry (fs : List (Nat × Val)) (args : List Val) : R m L (d + 1) (.method (.struct tTest fs) (name! "NextEntry") args) h =
    callWith (ctxT m L d) L fn_NextTestEntry (some (.struct tTest fs)) args h := by kernel_rfl
end

/-- The body of the loop in `TestDataScanner.NextEntry`. -/
def testBody : Stmts := loopBody (stmtAt 0 fn_NextTestEntry.body)
/-- The body of a loop with `range`. -/
def rangeBodyOf : Stmt → Stmts
  | .range _ _ _ b => b
  | _ => .nil
/-- The loop over the segments. -/
def segsBody : Stmts := rangeBodyOf (stmtAt 7 testBody)
/-- The loop over the characters. -/
def charsBody : Stmts := rangeBodyOf (stmtAt 2 segsBody)

theorem makeOf_bytes (h : Heap) (n : Nat) : makeOf (.slice noName tB) [.const n] h =
    .ok (.slice noName tB (some ⟨h.length, 0, n, n⟩), h ++ [.arr (List.replicate n (.u8 tyU8 0))]) := by
  simp only [makeOf, bind_apply, indexValue, pure_apply, bindR_ok, zeroValue]
  rw [if_pos (by omega)]
  rfl

theorem encodeRune_len (r : Rune) : (EncodeRune r).length ≤ 4 ∧ EncodeRune r ≠ [] := by
  unfold EncodeRune
  simp only []
  repeat' split
  all_goals simp

theorem writeBytes_new {h : Heap} {a n : Nat} {l : List Val} (ha : h[a]? = some (.arr l)) (bs : List UInt8) (hb : bs.length ≤ n) :
    writeBytes (some ⟨a, 0, n, n⟩) bs h = .ok ((), h.set a (.arr (bs.map (.u8 tyU8) ++ l.drop bs.length))) := by
  simp only [writeBytes]
  rw [if_pos hb]
  simp only [bind_apply, load_some ha, bindR_ok, store_apply, List.take_zero, List.nil_append, Nat.zero_add]

theorem zeroValue_u8 (h : Heap) : zeroValue tB h = .ok (.u8 tyU8 0, h) := rfl

/-- The state of the loop over the characters: the entry is at address `ae`, `K` are the addresses that are to be kept. -/
structure CharsInv (K : Nat → Prop) (h : Heap) (ae : Nat) (oIn oW oC : Option Sl) (input cur : List UInt8) : Prop where
  lt : ∀ b, K b → b < h.length
  obj : h[ae]? = some (.struct tTE (teFields oIn oW))
  inp : Grown h oIn (input.map (.u8 tyU8))
  cur : Grown h oC (cur.map (.u8 tyU8))
  kae : ¬ K ae
  kin : ∀ b, K b → Off oIn b
  kcur : ∀ b, K b → Off oC b
  aein : Off oIn ae
  aecur : Off oC ae
  dis : ∀ s, oIn = some s → Off oC s.a

/-- The variables outside the loop over the segments. -/
def envE (ae ac : Nat) (vWs vRaw : Val) : Env := [(name! "entry", .cell tTE ae), (name! "wantSegs", vWs), (name! "raw", vRaw), (name! "sc", .cell tTest ac)]
/-- The variables in the loop over the characters. -/
def envC (ae ac : Nat) (vWs vRaw vSeg vCh : Val) (oC : Option Sl) : Env :=
  (name! "currentSeg", .slice noName tB oC) :: (name! "charsHex", vCh) :: (name! "wantSeg", vSeg) :: envE ae ac vWs vRaw

theorem rangeVars_elem {h : Heap} {q : Sl} {v : List Val} {i : Nat} {w : Val} (x : Nat) (env : Env) (hx : ¬ (x = 0 ∨ x = name! "_")) (hw : ∀ t fs, w ≠ .struct t fs)
    (hq : h[q.a]? = some (.arr v)) (hv : v[q.off + i]? = some w) : rangeVars q (name! "_") x i env h = .ok ((x, w) :: env, h) := by
  simp only [rangeVars, or_true, if_true, if_neg hx, bind_apply, loadElem_some hq hv, bindR_ok]
  cases w <;> first | rfl | exact absurd rfl (hw _ _)

/-- The text of the error for a character that is not a number. -/
def badChar (m : Machine) (s : GoString) : GoString := m.sprintf [.str (str "invalid character reference %q"), .str s]

section
variable (m : Machine) (hW : 32 ≤ m.W) (L d : Nat) (ae ac : Nat) (vWs vRaw vSeg vCh : Val) (oC : Option Sl) (h : Heap) (q s : Sl) (i : Nat) (p : List UInt8) (v : List Val)
  (hq : h[q.a]? = some (.arr v)) (hv : v[q.off + i]? = some (.slice noName tB (some s))) (hp : BytesAt h (some s) p)
include hW hq hv hp

/-- A piece without a character. -/
theorem chars_skip (he : TrimSpace p = []) : rangeBody (ctxT m L (d + 2)) L q (name! "_") (name! "charHex") charsBody i (envC ae ac vWs vRaw vSeg vCh oC) h =
    .ok (.cont (envC ae ac vWs vRaw vSeg vCh oC), h) := by
  have w0 := wrap_small m.W hW 0 (by omega) (by omega)
  obtain ⟨o1, c1, b1, -⟩ := trimOf_spec hp
  have r1 := b1.readSlice
  rw [rangeBody_apply, rangeVars_elem (name! "charHex") _ (by decide) (by intro _ _ h; cases h) hq hv, bindR_ok]
  simp [mem_exec, charsBody, segsBody, testBody, fn_NextTestEntry, stmtAt, loopBody, rangeBodyOf, envC, envE, c1, r1, bytesOf_map, bytesOf, he, w0]

/-- A piece that is not a number. -/
theorem chars_bad (he : TrimSpace p ≠ []) (hi : ParseInt (TrimSpace p) = none) :
    rangeBody (ctxT m L (d + 2)) L q (name! "_") (name! "charHex") charsBody i (envC ae ac vWs vRaw vSeg vCh oC) h =
    .ok (.ret [.struct tTE (teFields none none), .err (some (.text (badChar m (TrimSpace p))))], h) := by
  have w0 := wrap_small m.W hW 0 (by omega) (by omega)
  obtain ⟨o1, c1, b1, -⟩ := trimOf_spec hp
  have r1 := b1.readSlice
  rw [rangeBody_apply, rangeVars_elem (name! "charHex") _ (by decide) (by intro _ _ h; cases h) hq hv, bindR_ok]
  simp [mem_exec, charsBody, segsBody, testBody, fn_NextTestEntry, stmtAt, loopBody, rangeBodyOf, envC, envE, c1, r1, bytesOf_map, he, w0, hi, parseIntVal, badChar]
  rfl

/-- A character. -/
theorem chars_ok (he : TrimSpace p ≠ []) (n : Int) (hi : ParseInt (TrimSpace p) = some n) {K : Nat → Prop} {oIn oW : Option Sl} {input cur : List UInt8}
    (hI : CharsInv K h ae oIn oW oC input cur) :
    ∃ h' oIn' oC', rangeBody (ctxT m L (d + 2)) L q (name! "_") (name! "charHex") charsBody i (envC ae ac vWs vRaw vSeg vCh oC) h =
      .ok (.next (envC ae ac vWs vRaw vSeg vCh oC'), h') ∧
      CharsInv K h' ae oIn' oW oC' (input ++ EncodeRune (toRune n)) (cur ++ EncodeRune (toRune n)) ∧ (∀ b, K b → h'[b]? = h[b]?) ∧ h.length ≤ h'.length := by
  have w0 := wrap_small m.W hW 0 (by omega) (by omega)
  obtain ⟨o1, c1, b1, -⟩ := trimOf_spec hp
  have r1 := b1.readSlice
  obtain ⟨len4, ne4⟩ := encodeRune_len (toRune n)
  generalize hbs : EncodeRune (toRune n) = bs at *
  have hbs' : EncodeRune (Int32.ofInt n) = bs := hbs
  have hne : bs.map (Val.u8 tyU8) ≠ [] := fun h => ne4 (List.map_eq_nil_iff.mp h)
  have c2 := makeOf_bytes h 4
  generalize hh1 : h ++ [Obj.arr (List.replicate 4 (.u8 tyU8 0))] = h1 at c2
  have k1 : ∀ b, b < h.length → h1[b]? = h[b]? := fun b hb => by rw [← hh1]; exact push_old hb
  have n1 : h1[h.length]? = some (.arr (List.replicate 4 (.u8 tyU8 0))) := by rw [← hh1]; exact push_new
  have l1 : h1.length = h.length + 1 := by rw [← hh1]; simp
  have c3 := writeBytes_new n1 bs len4
  have n2 := set_self (o' := .arr (bs.map (.u8 tyU8) ++ (List.replicate 4 (.u8 tyU8 0)).drop bs.length)) n1
  generalize hh2 : h1.set h.length (.arr (bs.map (.u8 tyU8) ++ (List.replicate 4 (.u8 tyU8 0)).drop bs.length)) = h2 at c3 n2
  have k2 : ∀ b, b < h.length → h2[b]? = h[b]? := fun b hb => by rw [← hh2, set_other (by omega), k1 b hb]
  have l2 : h2.length = h.length + 1 := by rw [← hh2, List.length_set, l1]
  have hae := lt_of_some hI.obj
  have o2 : h2[ae]? = some (.struct tTE (teFields oIn oW)) := by rw [k2 ae hae]; exact hI.obj
  have ld2 := load_some o2
  have r2 : readSlice (some ⟨h.length, 0, bs.length, 4⟩) h2 = .ok (bs.map (.u8 tyU8), h2) := by
    rw [readSlice_some n2]; simp only [List.drop_zero, ← List.length_map (as := bs) (Val.u8 tyU8), List.take_left']
  obtain ⟨oIn', h3, c4, g4, a4⟩ := append_grown m tB _ zeroValue_u8 (hI.inp.keep (h' := h2) fun s hs => k2 _ (hI.inp.lt s hs)) hne
  have o3 : h3[ae]? = some (.struct tTE (teFields oIn oW)) := by rw [a4.keep ae (by omega) hI.aein]; exact o2
  have ld3 := load_some o3
  have offB : ∀ {o : Option Sl} {vs : List Val}, Grown h o vs → Off o h.length := fun g s hs => by have := g.lt s hs; omega
  have n3 : h3[h.length]? = some (.arr (bs.map (.u8 tyU8) ++ (List.replicate 4 (.u8 tyU8 0)).drop bs.length)) := by rw [a4.keep _ (by omega) (offB hI.inp)]; exact n2
  have n4 : (h3.set ae (.struct tTE (teFields oIn' oW)))[h.length]? = some (.arr (bs.map (.u8 tyU8) ++ (List.replicate 4 (.u8 tyU8 0)).drop bs.length)) := by rw [set_other (by omega)]; exact n3
  have l4 : h.length + 1 ≤ (h3.set ae (.struct tTE (teFields oIn' oW))).length := by rw [List.length_set, ← l2]; exact a4.len
  have o4 := set_self (o' := .struct tTE (teFields oIn' oW)) o3
  have g4' : Grown (h3.set ae (.struct tTE (teFields oIn' oW))) oIn' ((input.map (.u8 tyU8)) ++ bs.map (.u8 tyU8)) :=
    g4.keep fun s hs => set_other (Ne.symm (a4.off (by omega) hI.aein s hs))
  have offC : ∀ s, oC = some s → Off oIn s.a := fun s hs t ht e => hI.dis t ht s hs e.symm
  have gc4 : Grown (h3.set ae (.struct tTE (teFields oIn' oW))) oC (cur.map (.u8 tyU8)) := hI.cur.keep fun s hs => by
    have := hI.cur.lt s hs
    rw [set_other (Ne.symm (hI.aecur s hs)), a4.keep _ (by omega) (offC s hs), k2 _ this]
  have k4 : ∀ b, K b → (h3.set ae (.struct tTE (teFields oIn' oW)))[b]? = h[b]? := fun b hb => by
    have := hI.lt b hb
    have hne' : b ≠ ae := fun e => hI.kae (e ▸ hb)
    rw [set_other (Ne.symm hne'), a4.keep b (by omega) (hI.kin b hb), k2 b this]
  generalize hh4 : h3.set ae (.struct tTE (teFields oIn' oW)) = h4 at n4 l4 o4 g4' gc4 k4
  have r4 : readSlice (some ⟨h.length, 0, bs.length, 4⟩) h4 = .ok (bs.map (.u8 tyU8), h4) := by
    rw [readSlice_some n4]; simp only [List.drop_zero, ← List.length_map (as := bs) (Val.u8 tyU8), List.take_left']
  obtain ⟨oC', h5, c5, g5, a5⟩ := append_grown m tB _ zeroValue_u8 gc4 hne
  have hl4 : h3.length = h4.length := by rw [← hh4, List.length_set]
  have hdis : ∀ s, oIn' = some s → Off oC s.a := by
    intro s hs t ht
    have := hI.cur.lt t ht
    rcases a4.addr s hs with ⟨s', hs', e⟩ | hl
    · rw [← e]; exact hI.dis s' hs' t ht
    · omega
  refine ⟨h5, oIn', oC', ?_, ⟨?_, ?_, ?_, ?_, hI.kae, ?_, ?_, ?_, ?_, ?_⟩, ?_, ?_⟩
  · rw [rangeBody_apply, rangeVars_elem (name! "charHex") _ (by decide) (by intro _ _ h; cases h) hq hv, bindR_ok]
    have hi1 : (0 : Int) ≤ bs.length := by omega
    have hi2 : (bs.length : Int) ≤ 4 := by omega
    have c2' : makeOf (.slice noName tB) [.const 4] h = .ok (.slice noName tB (some ⟨h.length, 0, 4, 4⟩), h1) := c2
    have hh4' := hh4
    simp only [teFields] at hh4'
    simp [mem_exec, charsBody, segsBody, testBody, fn_NextTestEntry, stmtAt, loopBody, rangeBodyOf, envC, envE, c1, r1, bytesOf_map, bytesOf, he, w0, hi, parseIntVal,
      c2', hbs', c3, hi1, hi2, len4, ld2, ld3, r2, r4, c4, c5, o3, o4, hh4', teFields, loadStruct]
  · intro b hb
    have := hI.lt b hb
    have := a5.len
    omega
  · rw [a5.keep ae (lt_of_some o4) hI.aecur]; exact o4
  · rw [List.map_append]
    exact g4'.keep fun s hs => a5.keep _ (g4'.lt s hs) (hdis s hs)
  · rw [List.map_append]; exact g5
  · intro b hb; exact a4.off (by have := hI.lt b hb; omega) (hI.kin b hb)
  · intro b hb; exact a5.off (by have := hI.lt b hb; omega) (hI.kcur b hb)
  · exact a4.off (by omega) hI.aein
  · exact a5.off (by omega) hI.aecur
  · intro s hs; exact a5.off (g4'.lt s hs) (hdis s hs)
  · intro b hb
    have := hI.lt b hb
    rw [a5.keep b (by omega) (hI.kcur b hb), k4 b hb]
  · have := a5.len; omega
end

/-- The error that the code returns for an error of the model. -/
def errOf (m : Machine) : ParseErr → GoErr
  | .io e => .io e
  | .invalidChar s => .text (badChar m s)
  | _ => .syntax

theorem chars_loop (m : Machine) (hW : 32 ≤ m.W) (L d : Nat) (ae ac : Nat) (vWs vRaw vSeg vCh : Val) (q : Sl) (A : Nat) (v : List Val) (hq0 : q.off = 0)
    (K : Nat → Prop) (hKq : K q.a) (hKA : K A) (oW : Option Sl) : ∀ (ps : List (List UInt8)) (i : Nat) (h : Heap) (oIn oC : Option Sl) (input cur : List UInt8),
    h[q.a]? = some (.arr v) → Pieces h A v i ps → CharsInv K h ae oIn oW oC input cur →
    match parseChars ps input cur with
    | .error e => ∃ h', rangeN (rangeBody (ctxT m L (d + 2)) L q (name! "_") (name! "charHex") charsBody) ps.length i (envC ae ac vWs vRaw vSeg vCh oC) h =
        .ok (.ret [.struct tTE (teFields none none), .err (some (errOf m e))], h') ∧ (∀ b, K b → h'[b]? = h[b]?) ∧ h.length ≤ h'.length
    | .ok (input', cur') => ∃ h' oIn' oC', rangeN (rangeBody (ctxT m L (d + 2)) L q (name! "_") (name! "charHex") charsBody) ps.length i (envC ae ac vWs vRaw vSeg vCh oC) h =
        .ok (.next (envC ae ac vWs vRaw vSeg vCh oC'), h') ∧ CharsInv K h' ae oIn' oW oC' input' cur' ∧ (∀ b, K b → h'[b]? = h[b]?) ∧ h.length ≤ h'.length := by
  intro ps
  induction ps with
  | nil => intro i h oIn oC input cur hq hp hI; exact ⟨h, oIn, oC, rfl, hI, fun _ _ => rfl, Nat.le_refl _⟩
  | cons p ps ih =>
    intro i h oIn oC input cur hq hp hI
    obtain ⟨s, hv, hsA, hb⟩ := hp 0 p rfl
    have hv : v[q.off + i]? = some (.slice noName tB (some s)) := by rw [hq0, Nat.zero_add]; exact hv
    rw [List.length_cons, rangeN_succ]
    rw [parseChars]
    by_cases he : TrimSpace p = []
    · rw [chars_skip m hW L d ae ac vWs vRaw vSeg vCh oC h q s i p v hq hv hb he, bindR_ok, rangeNext]
      simp only [he, List.length_nil, if_true]
      exact ih (i + 1) h oIn oC input cur hq hp.tail hI
    · have hl : ¬ (TrimSpace p).length = 0 := fun h => he (List.length_eq_zero_iff.mp h)
      simp only [if_neg hl]
      rcases hi : ParseInt (TrimSpace p) with _ | n
      · rw [chars_bad m hW L d ae ac vWs vRaw vSeg vCh oC h q s i p v hq hv hb he hi]
        exact ⟨h, rfl, fun _ _ => rfl, Nat.le_refl _⟩
      · obtain ⟨h1, oIn1, oC1, e1, hI1, k1, l1⟩ := chars_ok m hW L d ae ac vWs vRaw vSeg vCh oC h q s i p v hq hv hb he n hi hI
        rw [e1, bindR_ok, rangeNext]
        have := ih (i + 1) h1 oIn1 oC1 (input ++ EncodeRune (toRune n)) (cur ++ EncodeRune (toRune n)) (by rw [k1 _ hKq]; exact hq) (hp.tail.keep (k1 _ hKA)) hI1
        simp only []
        rcases hc : parseChars ps (input ++ EncodeRune (toRune n)) (cur ++ EncodeRune (toRune n)) with e | ⟨input', cur'⟩
        · rw [hc] at this
          obtain ⟨h', f1, f2, f3⟩ := this
          exact ⟨h', f1, fun b hb => by rw [f2 b hb, k1 b hb], by omega⟩
        · rw [hc] at this
          obtain ⟨h', oIn', oC', f1, f2, f3, f4⟩ := this
          exact ⟨h', oIn', oC', f1, f2, fun b hb => by rw [f3 b hb, k1 b hb], by omega⟩

end Textseg.GoMem.TD
