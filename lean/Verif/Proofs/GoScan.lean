import Verif.Proofs.GoLookup
import Verif.Proofs.Scan
/-!
# Running `ScanGraphemeClusters`
-/

namespace Textseg.GoLang
open Textseg

set_option linter.unusedSimpArgs false

theorem sliceFromOf_bytes (r : List UInt8) (n : Nat) :
    sliceFromOf (.bytes (some r)) (n : Int) = liftV (fun l => .bytes (some l)) (goSliceFrom r n) := by
  unfold sliceFromOf goSliceFrom
  by_cases h : n ≤ r.length
  · have h' : (0 : Int) ≤ n ∧ (n : Int) ≤ ((some r).getD []).length := ⟨by omega, by simpa using h⟩
    simp only [h', h, if_true, and_self]
    rfl
  · have h' : ¬ ((0 : Int) ≤ n ∧ (n : Int) ≤ ((some r).getD []).length) := by
      simp only [Option.getD_some]; omega
    simp only [h', h, if_false]
    rfl

theorem sliceToOf_bytes (r : List UInt8) (n : Nat) :
    sliceToOf (.bytes (some r)) (n : Int) = liftV (fun l => .bytes (some l)) (goSliceTo r n) := by
  unfold sliceToOf goSliceTo
  by_cases h : n ≤ r.length
  · have h' : (0 : Int) ≤ n ∧ (n : Int) ≤ ((some r).getD []).length := ⟨by omega, by simpa using h⟩
    simp only [h', h, if_true, and_self]
    rfl
  · have h' : ¬ ((0 : Int) ≤ n ∧ (n : Int) ≤ ((some r).getD []).length) := by
      simp only [Option.getD_some]; omega
    simp only [h', h, if_false]
    rfl

theorem exec_opAssign' (c : Ctx) (L : Nat) (env : Env) (op : BinOp) (x : Nat) (e : Expr) :
    exec c L (.opAssign op x e) env =
    match env.get x with
    | none => stuck
    | some old => (eval c env e >>= fun v => binary c.W op old v >>= fun v => assignVar c.W env x v >>= fun env => .ok (.next env)) := rfl

theorem exec_forever (c : Ctx) (L : Nat) (env : Env) (body : Stmts) :
    exec c L (.forever body) env =
    (loopN (fun _ => .ok true) (fun env => execs c L body env >>= fun o => .ok (leave env.length o))
      (fun env => .ok (.next env)) L env >>= fun o => .ok (leave env.length o)) := rfl

/-- The body of the loop of grapheme_clusters.go:38-78 -/
def loopBody : Stmts :=
  match fn_ScanGraphemeClusters.body.tail.tail.tail.tail.tail.tail.tail.head with
  | .forever b => b
  | _ => .nil

/-- `return n, data[:n], nil` -/
def emitOut (data : List UInt8) (n : Nat) : R Out :=
  liftB (goSliceTo data n) fun tok => .ok (.ret [.int tyInt n, .bytes (some tok), .nil])

/-- `return 0, nil, nil` -/
def needMoreOut : R Out := .ok (.ret [.const (0 : Nat), .nil, .nil])

/-- The local variables of the loop. -/
def scanEnv (data : List UInt8) (atEOF : Bool) (props : UInt8) (count : Nat) (remain : List UInt8) (state : Int) (prev : UInt8) : Env :=
  [(name! "prev", .u8 tCP prev), (name! "state", .int tState state), (name! "remain", .bytes (some remain)),
    (name! "count", .int tyInt count), (name! "properties", .u8 tCP props), (name! "data", .bytes (some data)), (name! "atEOF", .bool atEOF)]

variable {W : Nat} (L d : Nat) (hW : 32 ≤ W)

theorem binary_add_int (W : Nat) (t : TyId) (m n : Nat) :
    binary W .add (.int t m) (.int t n) = .ok (.int t (wrap W (m + n : Nat))) := by
  simp only [binary, intOp, if_true, Int.natCast_add]

theorem natCast_bne (m n : Nat) : ((m : Int) != (n : Int)) = (m != n) := by
  simp only [bne, natCast_beq]

include hW in
theorem run_loopBody (hL : 4 ≤ L) (data : List UInt8) (atEOF : Bool) (props : UInt8) (count : Nat) (remain : List UInt8) (state : Int)
    (prev : UInt8) :
    (execs (ctxS W L (d + 3)) L loopBody (scanEnv data atEOF props count remain state prev) >>=
      fun o => .ok (leave 7 o)) =
    if (remain.length == 0) = true then (if atEOF = true then emitOut data count else needMoreOut)
    else liftB (LookupFirstChar remain) fun r =>
      if (r.1 == ErrorProps) = true then emitOut data count
      else if (r.2 == 0) = true then (if (remain.length != 0 && atEOF) = true then emitOut data count else needMoreOut)
      else liftB (goSliceFrom remain r.2) fun remain' =>
        liftB (Transition state prev r.1) fun s =>
          if s.1 = true then emitOut data count
          else .ok (.next [(name! "prev", .u8 tCP r.1), (name! "state", .int tState s.2), (name! "remain", .bytes (some remain')),
              (name! "count", .int tyInt (wrap W (count + r.2 : Nat))), (name! "properties", .u8 tCP props), (name! "data", .bytes (some data)), (name! "atEOF", .bool atEOF)]) := by
  simp only [loopBody, fn_ScanGraphemeClusters, Stmts.tail, Stmts.head, scanEnv, go_exec, Nat.reduceEqDiff, reduceCtorEq,
    binary_eq_lit hW, binary_ne_lit hW, Nat.reduceLT, Nat.reducePow, natCast_beq, Option.getD_some, liftV_bind, liftB_bind,
    sliceFromOf_bytes, sliceToOf_bytes, indexValue_int, indexValue_const, run_LookupFirstChar L d hW hL, lift_liftB,
    run_Transition W L d hW, exec_opAssign', Nat.reduceAdd, Nat.reduceSub, binary_add_int, natCast_bne]
  rfl

/-- A result of the split function as the values that the code returns. -/
def splitOut (r : SplitResult) : List Val :=
  match r.token with
  | none => [.const r.advance, .nil, .nil]
  | some tok => [.int tyInt r.advance, .bytes (some tok), .nil]

theorem emit_splitOut {data : List UInt8} {n : Nat} {r : SplitResult} (h : emit data n = .ok r) :
    emitOut data n = .ok (.ret (splitOut r)) := by
  unfold emit at h
  unfold emitOut
  cases hg : goSliceTo data n with
  | error e => rw [hg] at h; cases h
  | ok tok => rw [hg] at h; cases h; rfl

include hW in
theorem run_loop (hL : 4 ≤ L) (data : List UInt8) (hd : data.length < 2 ^ (W - 1)) (atEOF : Bool) (props : UInt8) (r : SplitResult) :
    ∀ (fuel bound count : Nat) (remain : List UInt8) (state : Int) (prev : UInt8), fuel ≤ bound → count + remain.length ≤ data.length →
    scanLoop data atEOF fuel count remain state prev = .ok r →
    loopN (fun _ => .ok true) (fun env => execs (ctxS W L (d + 3)) L loopBody env >>= fun o => .ok (leave env.length o))
      (fun env => .ok (.next env)) bound (scanEnv data atEOF props count remain state prev) = .ok (.ret (splitOut r))
  | 0, _, _, _, _, _, _, _, h => by cases h
  | fuel + 1, 0, _, _, _, _, hb, _, _ => by omega
  | fuel + 1, bound + 1, count, remain, state, prev, hb, hc, h => by
    have hbody := run_loopBody L d hW hL data atEOF props count remain state prev
    rw [scanLoop] at h
    by_cases h0 : (remain.length == 0) = true
    · rw [if_pos h0] at h hbody
      cases atEOF with
      | true => exact loopN_ret bound rfl (hbody.trans (emit_splitOut h))
      | false => cases h; exact loopN_ret bound rfl hbody
    · rw [if_neg h0] at h hbody
      cases hl : LookupFirstChar remain with
      | error e => rw [hl] at h; cases h
      | ok nm =>
        obtain ⟨next, more⟩ := nm
        rw [hl] at h hbody
        replace h : (if (next == ErrorProps) = true then emit data count
          else if (more == 0) = true then (if (remain.length != 0 && atEOF) = true then emit data count else .ok needMore)
          else do
            let remain ← goSliceFrom remain more
            let (split, nextState) ← Transition state prev next
            if split then emit data count
            else scanLoop data atEOF fuel (count + more) remain nextState next) = .ok r := h
        rw [liftB_ok] at hbody
        by_cases h1 : (next == ErrorProps) = true
        · rw [if_pos h1] at h
          rw [if_pos h1] at hbody
          exact loopN_ret bound rfl (hbody.trans (emit_splitOut h))
        · rw [if_neg h1] at h
          rw [if_neg h1] at hbody
          by_cases h2 : (more == 0) = true
          · rw [if_pos h2] at h
            rw [if_pos h2] at hbody
            by_cases h3 : (remain.length != 0 && atEOF) = true
            · rw [if_pos h3] at h hbody
              exact loopN_ret bound rfl (hbody.trans (emit_splitOut h))
            · rw [if_neg h3] at h hbody
              cases h
              exact loopN_ret bound rfl hbody
          · rw [if_neg h2] at h
            rw [if_neg h2] at hbody
            cases hs : goSliceFrom remain more with
            | error e => rw [hs] at h; cases h
            | ok remain' =>
              have hr : more ≤ remain.length ∧ remain' = remain.drop more := by
                unfold goSliceFrom at hs
                split at hs
                · rename_i hle; cases hs; exact ⟨hle, rfl⟩
                · cases hs
              cases ht : Transition state prev next with
              | error e => rw [hs, ht] at h; cases h
              | ok sn =>
                obtain ⟨split, ns⟩ := sn
                rw [hs, ht] at h
                replace h : (if split = true then emit data count else scanLoop data atEOF fuel (count + more) remain' ns next) = .ok r := h
                rw [hs, liftB_ok, ht, liftB_ok] at hbody
                by_cases hsp : split = true
                · rw [if_pos hsp] at h
                  rw [if_pos hsp] at hbody
                  exact loopN_ret bound rfl (hbody.trans (emit_splitOut h))
                · rw [if_neg hsp] at h
                  rw [if_neg hsp, wrap_nat (by omega)] at hbody
                  rw [loopN_next (env' := scanEnv data atEOF props (count + more) remain' ns next) bound rfl hbody rfl]
                  refine run_loop hL data hd atEOF props r fuel bound (count + more) remain' ns next (by omega) ?_ h
                  rw [hr.2, List.length_drop]
                  omega

/-- `return 1, data[:1], nil` -/
def emitOne (data : List UInt8) : R Out :=
  liftB (goSliceTo data 1) fun tok => .ok (.ret [.const (1 : Nat), .bytes (some tok), .nil])

include hW in
/-- The statements before the loop. -/
theorem run_prefix (hL : 4 ≤ L) (atEOF : Bool) (data : List UInt8) (hne : data ≠ []) :
    execs (ctxS W L (d + 3)) L fn_ScanGraphemeClusters.body [(name! "data", .bytes (some data)), (name! "atEOF", .bool atEOF)] =
    liftB (LookupFirstChar data) fun r =>
      if (r.1 == ErrorProps) = true then emitOne data
      else if (r.2 == 0) = true then (if (decide ((data.length : Int) > (r.2 : Int)) && atEOF) = true then emitOne data else needMoreOut)
      else liftB (goSliceFrom data r.2) fun remain =>
        liftB (Begin r.1) fun state =>
          exec (ctxS W L (d + 3)) L (.forever loopBody) (scanEnv data atEOF r.1 r.2 remain state r.1) >>= andThen (ctxS W L (d + 3)) L .nil := by
  have h0 : (data.length == 0) = false := by
    cases data with
    | nil => contradiction
    | cons => rfl
  simp only [fn_ScanGraphemeClusters, go_exec, Nat.reduceEqDiff, reduceCtorEq,
    binary_eq_lit hW, binary_ne_lit hW, Nat.reduceLT, Nat.reducePow, natCast_beq, Option.getD_some, liftV_bind, liftB_bind,
    sliceFromOf_bytes, sliceToOf_bytes, indexValue_int, indexValue_const, run_LookupFirstChar L d hW hL, lift_liftB,
    run_Begin W L d hW, Nat.reduceAdd, Nat.reduceSub, binary_gt_int, h0, Bool.false_eq_true]
  rfl

/-- The values that the code returns, with their types. -/
def splitVals (r : SplitResult) : List Val := [.int tyInt r.advance, .bytes r.token, .nil]

theorem scan_none {data : List UInt8} {atEOF : Bool} {r : SplitResult} (h : ScanGraphemeClusters data atEOF = .ok r) (ht : r.token = none) :
    r.advance = 0 := by
  obtain ⟨k, hk⟩ := ScanRes.total atEOF data
  rw [scan_eq hk] at h
  cases h
  cases k with
  | none => rfl
  | some k => cases ht

include hW in
/-- Running `ScanGraphemeClusters` gives what the model gives. -/
theorem run_ScanGraphemeClusters (p : Option (List UInt8)) (atEOF : Bool) (hd : (p.getD []).length < 2 ^ (W - 1))
    (hL : (p.getD []).length + 4 ≤ L) (r : SplitResult) (h : ScanGraphemeClusters (p.getD []) atEOF = .ok r) :
    run library W L (d + 4) (.func (name! "textseg") (name! "ScanGraphemeClusters") [.bytes p, .bool atEOF]) = .ok (splitVals r) := by
  show callWith (ctxS W L (d + 3)) L fn_ScanGraphemeClusters none [.bytes p, .bool atEOF] = _
  have hcall : ∀ o, execs (ctxS W L (d + 3)) L fn_ScanGraphemeClusters.body [(name! "data", .bytes p), (name! "atEOF", .bool atEOF)] = o →
      callWith (ctxS W L (d + 3)) L fn_ScanGraphemeClusters none [.bytes p, .bool atEOF] =
      (o >>= fun o => match o with
        | .ret vs => results (ctxS W L (d + 3)) fn_ScanGraphemeClusters.results vs
        | .next _ => stuck) := by
    intro o ho
    subst ho
    kernel_rfl
  have hres : ∀ (n : Nat) (b : Val) (b' : Option (List UInt8)), n < 2 ^ 31 → assignTo W (.bytes, tyU8) b = .ok (.bytes b') →
      results (ctxS W L (d + 3)) fn_ScanGraphemeClusters.results [.const n, b, .nil] = .ok [.int tyInt n, .bytes b', .nil] := by
    intro n b b' hn hb
    simp only [fn_ScanGraphemeClusters, go_exec, assignTo_lit hW _ n hn, hb]
  have hone : ∀ data r, emit data 1 = .ok r → (emitOne data >>= fun o => match o with
        | .ret vs => results (ctxS W L (d + 3)) fn_ScanGraphemeClusters.results vs
        | .next _ => stuck) = .ok (splitVals r) := by
    intro data r h
    unfold emit at h
    unfold emitOne
    cases hg : goSliceTo data 1 with
    | error e => rw [hg] at h; cases h
    | ok tok =>
      rw [hg] at h; cases h
      exact hres 1 (.bytes (some tok)) (some tok) (by decide) rfl
  cases hp : p.getD [] with
  | nil =>
    rw [hcall needMoreOut]
    · rw [hp] at h
      cases h
      exact hres 0 .nil none (by decide) rfl
    · simp only [fn_ScanGraphemeClusters, go_exec, Nat.reduceEqDiff, reduceCtorEq, hp, binary_eq_lit hW, Nat.reduceLT, Nat.reducePow,
        beq_self_eq_true]
      rfl
  | cons b rest =>
    have hps : p = some (b :: rest) := by
      cases p with
      | none => cases hp
      | some l => rw [show l = b :: rest from hp]
    rw [hp] at h hd hL
    generalize hdata : b :: rest = data at *
    have hne : data ≠ [] := by rw [← hdata]; simp
    subst hps
    rw [hcall _ (run_prefix L d hW (by omega) atEOF data hne)]
    have h0 : ¬ (data.length == 0) = true := by
      cases data with
      | nil => contradiction
      | cons => simp
    have h00 := h
    unfold ScanGraphemeClusters at h
    rw [if_neg h0] at h
    cases hl : LookupFirstChar data with
    | error e => rw [hl] at h; cases h
    | ok nm =>
      obtain ⟨props, count⟩ := nm
      rw [hl] at h
      rw [liftB_ok]
      replace h : (if (props == ErrorProps) = true then emit data 1
        else if (count == 0) = true then (if (data.length > count && atEOF) = true then emit data 1 else .ok needMore)
        else do
          let remain ← goSliceFrom data count
          let state ← Begin props
          scanLoop data atEOF (data.length + 1) count remain state props) = .ok r := h
      by_cases h1 : (props == ErrorProps) = true
      · rw [if_pos h1] at h
        rw [if_pos h1]
        exact hone data r h
      · rw [if_neg h1] at h
        rw [if_neg h1]
        by_cases h2 : (count == 0) = true
        · rw [if_pos h2] at h
          rw [if_pos h2]
          have hgt : decide ((data.length : Int) > (count : Int)) = decide (data.length > count) := by
            apply decide_eq_decide.mpr; omega
          rw [hgt]
          by_cases h3 : (decide (data.length > count) && atEOF) = true
          · rw [if_pos h3] at h
            rw [if_pos h3]
            exact hone data r h
          · rw [if_neg h3] at h
            rw [if_neg h3]
            cases h
            exact hres 0 .nil none (by decide) rfl
        · rw [if_neg h2] at h
          rw [if_neg h2]
          cases hs : goSliceFrom data count with
          | error e => rw [hs] at h; cases h
          | ok remain =>
            have hr : count ≤ data.length ∧ remain = data.drop count := by
              unfold goSliceFrom at hs
              split at hs
              · rename_i hle; cases hs; exact ⟨hle, rfl⟩
              · cases hs
            cases hb : Begin props with
            | error e => rw [hs, hb] at h; cases h
            | ok state =>
              rw [hs, hb] at h
              rw [liftB_ok, liftB_ok, exec_forever, run_loop L d hW (by omega) data hd atEOF props r (data.length + 1) L count remain state props
                (by omega) (by rw [hr.2, List.length_drop]; omega) h]
              show results (ctxS W L (d + 3)) fn_ScanGraphemeClusters.results (splitOut r) = _
              have hadv : r.token = none → r.advance = 0 := scan_none h00
              obtain ⟨adv, tok, err⟩ := r
              cases tok with
              | none =>
                cases hadv rfl
                exact hres 0 .nil none (by decide) rfl
              | some tok =>
                simp only [fn_ScanGraphemeClusters, splitOut, splitVals, go_exec]

include hW in
/-- Running `ScanGraphemeClusters` gives what the model gives. -/
theorem run_scan (p : Option (List UInt8)) (atEOF : Bool) (hd : (p.getD []).length < 2 ^ (W - 1)) (hL : (p.getD []).length + 4 ≤ L) :
    run library W L (d + 4) (.func (name! "textseg") (name! "ScanGraphemeClusters") [.bytes p, .bool atEOF]) =
    lift splitVals (ScanGraphemeClusters (p.getD []) atEOF) := by
  obtain ⟨k, hk⟩ := ScanRes.total atEOF (p.getD [])
  rw [scan_eq hk]
  exact run_ScanGraphemeClusters L d hW p atEOF hd hL _ (scan_eq hk)

end Textseg.GoLang
