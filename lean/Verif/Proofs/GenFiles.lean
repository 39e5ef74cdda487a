import Verif.Proofs.GenOps
import Verif.Proofs.UCDParse
import Verif.Spec.GenFiles
/-!
# The generator on data files
-/

namespace Textseg.Gen
open Textseg Spec Scanner

theorem toRune_nat (n : Nat) : toRune (n : Int) = Int32.ofNat n := by
  unfold toRune
  apply Int32.toInt_inj.mp
  rw [Int32.toInt_ofInt, Int32.toInt_ofNat']

theorem ofNat_succ (n : Nat) : Int32.ofNat n + 1 = Int32.ofNat (n + 1) := by
  rw [Int32.ofNat_add]; rfl

theorem ofNat_toInt {n : Nat} (h : n < 2 ^ 31) : (Int32.ofNat n).toInt = n := by
  rw [Int32.toInt_ofNat_of_lt (by omega)]

theorem forRange_eq (op : Rune → TableOp) (n lo : Nat) (t : Tree) :
    forRange (fun t r => runOp t (op r)) n (Int32.ofNat lo) t =
      runOps t ((List.range n).map fun i => op (Int32.ofNat (lo + i))) := by
  induction n generalizing lo t with
  | zero => rfl
  | succ n ih =>
    rw [forRange, List.range_succ_eq_map, List.map_cons, runOps, Nat.add_zero]
    congr 1
    funext t'
    rw [ofNat_succ, ih, List.map_map]
    congr 2
    funext i
    simp only [Function.comp_apply]
    rw [show lo + 1 + i = lo + i.succ by omega]

theorem rangeCount_eq {e : Entry} {x : FileEntry} (h : EntryIs e x) (hx : SmallEntry x) :
    e.Start = Int32.ofNat x.1 ∧ rangeCount e = x.2.1 + 1 - x.1 := by
  obtain ⟨h1, h2⟩ := hx
  have e1 : e.Start = Int32.ofNat x.1 := by rw [h.start, toRune_nat]
  have e2 : e.End = Int32.ofNat (x.2.1 + 1) := by rw [h.stop, toRune_nat, ofNat_succ]
  refine ⟨e1, ?_⟩
  unfold rangeCount
  rw [e1, e2, ofNat_toInt h1, ofNat_toInt h2]
  omega

theorem forEach_eq {e : Entry} {x : FileEntry} (h : EntryIs e x) (hx : SmallEntry x) (op : Rune → TableOp) (t : Tree) :
    forRange (fun t r => runOp t (op r)) (rangeCount e) e.Start t = runOps t (forEach op x) := by
  obtain ⟨h1, h2⟩ := rangeCount_eq h hx
  rw [h1, h2, forRange_eq]
  rfl

theorem ascii_pict : ascii "Extended_Pictographic" = str "Extended_Pictographic" := by decide +kernel
theorem ascii_incb : ascii "InCB" = str "InCB" := by decide +kernel

theorem gbpEntry_eq {e : Entry} {x : FileEntry} (h : EntryIs e x) (hx : SmallEntry x) (t : Tree) :
    gbpEntry t e = runOps t (gcbOps LookupGCBProperty x) := by
  have hf := h.first
  unfold gbpEntry gcbOps
  rcases hl : x.2.2 with _ | ⟨n, ns⟩
  · rw [hl] at hf; cases hf
  · rw [hl] at hf
    simp only [List.head?_cons, Option.some.injEq] at hf
    rw [hf]
    exact forEach_eq h hx (fun r => .set r (LookupGCBProperty n)) t

theorem emojiEntry_eq {e : Entry} {x : FileEntry} (h : EntryIs e x) (hx : SmallEntry x) (t : Tree) :
    emojiEntry t e = runOps t (emojiOps x) := by
  have hf := h.first
  unfold emojiEntry emojiOps
  rcases hl : x.2.2 with _ | ⟨n, ns⟩
  · rw [hl] at hf; cases hf
  · rw [hl] at hf
    simp only [List.head?_cons, Option.some.injEq] at hf
    rw [hf]
    unfold LookupEmojiProperty
    by_cases hn : n = str "Extended_Pictographic"
    · simp only [hn, ascii_pict, if_true]
      rw [if_neg (by decide)]
      exact forEach_eq h hx (fun r => .set r 4) t
    · simp only [hn, ascii_pict, if_false]
      rw [if_pos (by decide)]
      rfl

theorem dcpEntry_eq {e : Entry} {x : FileEntry} (h : EntryIs e x) (hx : SmallEntry x) (t : Tree) :
    dcpEntry t e = runOps t (incbOps LookupInCBProperty x) := by
  unfold dcpEntry incbOps
  rw [h.all]
  simp only [bind, Except.bind]
  rcases hl : x.2.2 with _ | ⟨n, _ | ⟨m, ns⟩⟩
  · rfl
  · rfl
  · simp only [ascii_incb]
    by_cases hn : n = str "InCB"
    · simp only [hn, ne_eq, not_true_eq_false, if_true, if_false]
      exact forEach_eq h hx (fun r => .bitwiseOr r (LookupInCBProperty m)) t
    · simp only [hn, ne_eq, not_false_eq_true, if_true, if_false]
      rfl

/-- How reading a file ends. -/
def EndIs (E : IOErr) (fe : FileEnd) (r : Except ParseErr Unit) : Prop :=
  match fe with
  | .complete => r = if E = .eof then .ok () else .error (.io E)
  | .malformed l => ∃ e, IsRangeErr l e ∧ r = .error e

theorem endIs_error {E fe e} (h : EndIs E fe (.error e)) : ¬ Complete E fe ∧ FileError E fe e := by
  cases fe with
  | complete =>
    simp only [EndIs] at h
    split at h
    · cases h
    · next hne =>
      simp only [Except.error.injEq] at h
      exact ⟨fun hc => hne hc.2, h⟩
  | malformed =>
    obtain ⟨e', he, h⟩ := h
    simp only [Except.error.injEq] at h
    subst h
    exact ⟨fun hc => (by simp [Complete] at hc), he⟩

theorem endIs_ok {E fe u} (h : EndIs E fe (.ok u)) : Complete E fe := by
  cases fe with
  | complete =>
    refine ⟨rfl, Classical.byContradiction fun hne => ?_⟩
    simp only [EndIs, if_neg hne] at h
    cases h
  | malformed => obtain ⟨e, _, h⟩ := h; cases h

theorem readFile_eq {σ : Type} {read : Reader σ} {E : IOErr} {op : Tree → Entry → Go Tree} {f : FileEntry → List TableOp}
    (hop : ∀ e x, EntryIs e x → SmallEntry x → ∀ t, op t e = runOps t (f x)) (fuel : Nat) :
    ∀ {s : Scanner σ} {lines : List (List UInt8)} {es : List FileEntry} {fe : FileEnd},
    s.collect ScanLines read maxScanTokenSize fuel = .ok (lines, errOf E) → LinesMean lines es fe → (∀ x ∈ es, SmallEntry x) →
    ∃ r, EndIs E fe r ∧ ∀ t, readFile read op fuel s t = (runOps t (es.flatMap f) >>= fun t => .ok (r.map fun _ => t)) := by
  induction fuel with
  | zero => intro s lines es fe h; cases h
  | succ fuel ih =>
    intro s lines es fe h hm hs
    obtain ⟨r, s', h1, h2⟩ := nextEntry_of_collect (fuel + 1) h hm
    cases es with
    | nil =>
      cases fe with
      | complete =>
        simp only at h2
        subst h2
        refine ⟨_, rfl, fun t => ?_⟩
        rw [readFile]
        simp only [bind, Except.bind, h1, List.flatMap_nil, runOps, ParseErr.io.injEq]
        by_cases he : E = .eof
        · simp only [he, if_true]; rfl
        · simp only [he, if_false]; rfl
      | malformed =>
        obtain ⟨e, rfl, he⟩ := h2
        refine ⟨_, ⟨e, he, rfl⟩, fun t => ?_⟩
        rw [readFile]
        simp only [bind, Except.bind, h1, List.flatMap_nil, runOps]
        rw [if_neg (by rcases he with ⟨x, rfl, _⟩ | ⟨x, rfl, _⟩ <;> simp)]
        rfl
    | cons x es =>
      obtain ⟨e, ls, f', rfl, g2, g3, g4, g5⟩ := h2
      obtain ⟨r, i1, i2⟩ := ih (collect_mono f' g5 fuel (by omega)) g3 (fun y hy => hs y (List.mem_cons_of_mem _ hy))
      refine ⟨r, i1, fun t => ?_⟩
      rw [readFile]
      simp only [bind, Except.bind, h1, List.flatMap_cons, runOps_append, hop e x g2 (hs x List.mem_cons_self)]
      cases runOps t (f x) with
      | error e => rfl
      | ok t' =>
        simp only
        rw [i2]
        rfl

theorem readFile_data {σ : Type} {read : Reader σ} {rd : σ} {E fuel es fe} (h : DataFile read rd E fuel es fe) 
    {op : Tree → Entry → Go Tree} {f : FileEntry → List TableOp}
    (hop : ∀ e x, EntryIs e x → SmallEntry x → ∀ t, op t e = runOps t (f x)) :
    ∃ r, EndIs E fe r ∧ ∀ t, readFile read op fuel (newScanner rd 0) t =
      (runOps t (es.flatMap f) >>= fun t => .ok (r.map fun _ => t)) := by
  obtain ⟨D, lines, hl, hm, hfu⟩ := h.file
  exact readFile_eq hop fuel (collect_file hl fuel hfu) hm h.small

theorem buildTree_eq {σ : Type} {read : Reader σ} {rd1 rd2 rd3 : σ} {fuel E1 E2 E3 es1 es2 es3 fe1 fe2 fe3}
    (h1 : DataFile read rd1 E1 fuel es1 fe1) (h2 : DataFile read rd2 E2 fuel es2 fe2) (h3 : DataFile read rd3 E3 fuel es3 fe3) :
    ∃ r1 r2 r3, EndIs E1 fe1 r1 ∧ EndIs E2 fe2 r2 ∧ EndIs E3 fe3 r3 ∧
      BuildRawPropertyTree read fuel rd1 rd2 rd3 =
        (runOps newTree (es1.flatMap (gcbOps LookupGCBProperty)) >>= fun t =>
          match r1 with
          | .error e => .ok (.error e)
          | .ok _ => runOps t (es2.flatMap emojiOps) >>= fun t =>
            match r2 with
            | .error e => .ok (.error e)
            | .ok _ => runOps t (es3.flatMap (incbOps LookupInCBProperty)) >>= fun t =>
              match r3 with
              | .error e => .ok (.error e)
              | .ok _ => t.Compact >>= fun raw => .ok (.ok raw)) := by
  obtain ⟨r1, g1, k1⟩ := readFile_data h1 (op := gbpEntry) (fun e x h hx t => gbpEntry_eq h hx t)
  obtain ⟨r2, g2, k2⟩ := readFile_data h2 (op := emojiEntry) (fun e x h hx t => emojiEntry_eq h hx t)
  obtain ⟨r3, g3, k3⟩ := readFile_data h3 (op := dcpEntry) (fun e x h hx t => dcpEntry_eq h hx t)
  refine ⟨r1, r2, r3, g1, g2, g3, ?_⟩
  unfold BuildRawPropertyTree
  rw [k1]
  simp only [bind, Except.bind]
  cases runOps newTree (es1.flatMap (gcbOps LookupGCBProperty)) with
  | error e => rfl
  | ok t =>
    simp only
    cases r1 with
    | error e => rfl
    | ok _ =>
      simp only [Except.map]
      rw [k2]
      simp only [bind, Except.bind]
      cases runOps t (es2.flatMap emojiOps) with
      | error e => rfl
      | ok t =>
        simp only
        cases r2 with
        | error e => rfl
        | ok _ =>
          simp only [Except.map]
          rw [k3]
          simp only [bind, Except.bind]
          cases runOps t (es3.flatMap (incbOps LookupInCBProperty)) with
          | error e => rfl
          | ok t =>
            simp only
            cases r3 <;> rfl

theorem build_complete {σ : Type} {read : Reader σ} {rd1 rd2 rd3 : σ} {fuel es1 es2 es3}
    (h1 : DataFile read rd1 .eof fuel es1 .complete) (h2 : DataFile read rd2 .eof fuel es2 .complete)
    (h3 : DataFile read rd3 .eof fuel es3 .complete) :
    BuildRawPropertyTree read fuel rd1 rd2 rd3 =
      (runOps newTree (fileOps LookupGCBProperty LookupInCBProperty es1 es2 es3) >>= fun t => t.Compact >>= fun raw => .ok (.ok raw)) := by
  obtain ⟨r1, r2, r3, g1, g2, g3, e⟩ := buildTree_eq h1 h2 h3
  simp only [EndIs, if_true] at g1 g2 g3
  subst g1 g2 g3
  rw [e]
  unfold fileOps
  rw [runOps_append]
  simp only [bind, Except.bind]
  cases runOps newTree (es1.flatMap (gcbOps LookupGCBProperty)) with
  | error e => rfl
  | ok t =>
    simp only
    rw [runOps_append]
    simp only [bind, Except.bind]
    cases runOps t (es2.flatMap emojiOps) <;> rfl

theorem build_ok {σ : Type} {read : Reader σ} {rd1 rd2 rd3 : σ} {fuel E1 E2 E3 es1 es2 es3 fe1 fe2 fe3 raw}
    (h1 : DataFile read rd1 E1 fuel es1 fe1) (h2 : DataFile read rd2 E2 fuel es2 fe2) (h3 : DataFile read rd3 E3 fuel es3 fe3)
    (h : BuildRawPropertyTree read fuel rd1 rd2 rd3 = .ok (.ok raw)) :
    (fe1 = .complete ∧ E1 = .eof) ∧ (fe2 = .complete ∧ E2 = .eof) ∧ (fe3 = .complete ∧ E3 = .eof) := by
  have key : ∀ {E fe}, EndIs E fe (.ok ()) → fe = .complete ∧ E = .eof := by
    intro E fe h
    cases fe with
    | complete =>
      refine ⟨rfl, Classical.byContradiction fun hne => ?_⟩
      simp only [EndIs, if_neg hne] at h
      cases h
    | malformed => obtain ⟨e, _, h⟩ := h; cases h
  obtain ⟨r1, r2, r3, g1, g2, g3, e⟩ := buildTree_eq h1 h2 h3
  rw [e] at h
  simp only [bind, Except.bind] at h
  cases k1 : runOps newTree (es1.flatMap (gcbOps LookupGCBProperty)) with
  | error e => rw [k1] at h; cases h
  | ok t =>
    rw [k1] at h
    simp only at h
    cases r1 with
    | error e => cases h
    | ok _ =>
      simp only at h
      cases k2 : runOps t (es2.flatMap emojiOps) with
      | error e => rw [k2] at h; cases h
      | ok t =>
        rw [k2] at h
        simp only at h
        cases r2 with
        | error e => cases h
        | ok _ =>
          simp only at h
          cases k3 : runOps t (es3.flatMap (incbOps LookupInCBProperty)) with
          | error e => rw [k3] at h; cases h
          | ok t =>
            rw [k3] at h
            simp only at h
            cases r3 with
            | error e => cases h
            | ok _ => exact ⟨key g1, key g2, key g3⟩

end Textseg.Gen
