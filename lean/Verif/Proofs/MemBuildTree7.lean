import Verif.Proofs.MemBuildTree6
import Verif.Spec.BuildSource
import Verif.Model.GenMain
/-!
# The code of `BuildRawPropertyTree` does what the model says
-/

namespace Textseg.GoMem
open Textseg.GoLang (TyId tyInt tyU8 Halt importName wrap)
set_option linter.unusedSimpArgs false

theorem isRaw_nil (h : Heap) : Spec.IsRaw h (.struct tRaw rawNil) [] [] := ⟨none, none, rfl, rfl, rfl, rfl, rfl⟩

theorem envF1 (m : Machine) (base : GoString) (id1 id2 id3 : Nat) : EnvF (envBuild m base id1 id2 id3) (name! "gpbSc") 12 7 10 where
  sc := rfl
  ret := rfl
  tip := rfl
  io := rfl
  fmt := rfl
  nil := rfl
  uint8 := rfl
  charprops := rfl
  slices := rfl
  len := rfl
theorem envF2 (m : Machine) (base : GoString) (id1 id2 id3 : Nat) : EnvF (envBuild m base id1 id2 id3) (name! "emojiSc") 14 7 10 where
  sc := rfl
  ret := rfl
  tip := rfl
  io := rfl
  fmt := rfl
  nil := rfl
  uint8 := rfl
  charprops := rfl
  slices := rfl
  len := rfl
theorem envF3 (m : Machine) (base : GoString) (id1 id2 id3 : Nat) : EnvF (envBuild m base id1 id2 id3) (name! "dcpSc") 16 7 10 where
  sc := rfl
  ret := rfl
  tip := rfl
  io := rfl
  fmt := rfl
  nil := rfl
  uint8 := rfl
  charprops := rfl
  slices := rfl
  len := rfl

/-- The next file. -/
theorem FileAt.other {σ : Type} {m : Machine} {read : Reader σ} {h : Heap} {a id p : Nat} {x : Loc} {t : Gen.Tree} {s : Scanner σ}
    (f : FileAt m read h a id p x t s) {a' id' : Nat} {s' : Scanner σ} (ge : 7 ≤ a') (ho : h[a']? = some (.scan id' 0 none))
    (hS : Spec.Scans m id' 0 read s') : FileAt m read h a' id' p x t s' :=
  ⟨ge, f.glob, f.tree, f.ops, 0, none, ⟨ho, fun s hs => nomatch hs⟩, (fun s hs => nomatch hs), hS, fun s hs => nomatch hs⟩

/-- The tree at the beginning. -/
theorem heapB_tree (id1 id2 id3 : Nat) : TreeAt (heapB id1 id2 id3) 10 ⟨8, 9, 128, 64, [], []⟩ Gen.newTree :=
  (newTree_at_any (heap0 ++ [.struct tRaw rawNil]) rfl rfl (by decide)).grow (fun b hb => List.getElem?_append_left hb)

theorem heapB_file {σ : Type} (m : Machine) (read : Reader σ) (id1 id2 id3 : Nat) (s : Scanner σ) (hS : Spec.Scans m id1 0 read s) :
    FileAt m read (heapB id1 id2 id3) 11 id1 10 ⟨8, 9, 128, 64, [], []⟩ Gen.newTree s :=
  ⟨by decide, ⟨rfl, rfl, rfl, rfl, rfl⟩, heapB_tree _ _ _, ⟨_, _, _, Gen.opsInv_nil⟩, 0, none, ⟨rfl, fun s hs => nomatch hs⟩, (fun s hs => nomatch hs), hS, fun s hs => nomatch hs⟩

/-- A loop over a file and what follows. -/
theorem execs_file (c : Ctx) (L : Nat) (body rest : Stmts) (env : Env) (h : Heap) : execs c L (.cons (.loop .skip .omitted .skip body) rest) 0 env h =
    bindR (forever c L body L env h) fun o h => andThen c L 0 rest (leave env.length o) h := by
  rw [execs_cons, exec_forever, bindR_assoc]
  rfl

theorem leave_self (env : Env) : leave env.length (.next env) = .next env := by simp [mem_exec]

theorem readingError_gbp (m : Machine) (e : ParseErr) :
    Spec.readingError m "GraphemeBreakProperty.txt" e = wrapped m (name! "reading GraphemeBreakProperty.txt: %w") e := by
  rw [Spec.readingError, wrapped]
  congr 4
theorem readingError_emoji (m : Machine) (e : ParseErr) :
    Spec.readingError m "emoji-data.txt" e = wrapped m (name! "reading emoji-data.txt: %w") e := by
  rw [Spec.readingError, wrapped]
  congr 4
theorem readingError_dcp (m : Machine) (e : ParseErr) :
    Spec.readingError m "DerivedCoreProperties.txt" e = wrapped m (name! "reading DerivedCoreProperties.txt: %w") e := by
  rw [Spec.readingError, wrapped]
  congr 4

open Textseg.Gen Textseg.Spec in
theorem buildTree_spec {σ : Type} (m : Machine) (hW : 32 ≤ m.W) (read : Reader σ) (base : GoString) (id1 id2 id3 : Nat) (rd1 rd2 rd3 : σ)
    (ho : Opens m base id1 id2 id3) (h1 : Scans m id1 0 read (newScanner rd1 0)) (h2 : Scans m id2 0 read (newScanner rd2 0))
    (h3 : Scans m id3 0 read (newScanner rd3 0)) (fuel : Nat) :
    match readTree read fuel rd1 rd2 rd3 with
    | .ok (.ok raw) => BuildReturns gentable m base raw.Indices raw.Properties
    | .ok (.error (.reading file e)) => BuildFails gentable m base (readingError m file e)
    | .ok (.error _) => False
    | .error q => q ≠ .outOfFuel → BuildPanics gentable m base := by
  have e0 : ∀ L d, buildSession gentable m L (d + 8) base [] =
      bindR (execs (ctx m L (d + 7)) L tail14 0 (envBuild m base id1 id2 id3) (heapB id1 id2 id3))
        (returned (ctx m L (d + 7)) [(0, .name (name! "RawPropertyTree")), (0, .name (name! "error"))]) := by
    intro L d
    have e1 := prefix_ok m hW L (d + 4) base id1 id2 id3 ho.gbp ho.emoji ho.dcp
    rw [← e1]
    simp only [buildSession, bind_apply, init_gentable, bindR_ok]
    rfl
  have f1 := fun s hs => heapB_file m read id1 id2 id3 s hs
  have E1 := envF1 m base id1 id2 id3
  have E2 := envF2 m base id1 id2 id3
  have E3 := envF3 m base id1 id2 id3
  generalize envBuild m base id1 id2 id3 = env at e0 E1 E2 E3
  have c1 : (heapB id1 id2 id3)[12]? = some (.struct tScan [(name! "lineScan", .ptr tyScanner 11)]) := rfl
  have c2 : (heapB id1 id2 id3)[14]? = some (.struct tScan [(name! "lineScan", .ptr tyScanner 13)]) := rfl
  have c3 : (heapB id1 id2 id3)[16]? = some (.struct tScan [(name! "lineScan", .ptr tyScanner 15)]) := rfl
  have s2 : (heapB id1 id2 id3)[13]? = some (.scan id2 0 none) := rfl
  have s3 : (heapB id1 id2 id3)[15]? = some (.scan id3 0 none) := rfl
  have cr : (heapB id1 id2 id3)[7]? = some (.struct tRaw rawNil) := rfl
  generalize heapB id1 id2 id3 = hB at e0 f1 c1 c2 c3 s2 s3 cr
  have hret : ∀ (L d : Nat) (txt : GoErr) (h : Heap), returned (ctx m L (d + 7)) [(0, .name (name! "RawPropertyTree")), (0, .name (name! "error"))]
      (.ret [.struct tRaw rawNil, .err (some txt)]) h = .ok ([.struct tRaw rawNil, .err (some txt)], h) := by
    intro L d txt h
    simp [mem_exec]
  have l1 := file_loop m read gbpEntry rest1 (rest1_spec m hW) (name! "gpbSc") (name! "reading GraphemeBreakProperty.txt: %w") fuel (newScanner rd1 0) newTree
  rw [readTree]
  rcases hq1 : readFile read gbpEntry fuel (newScanner rd1 0) newTree with q | (e | t1)
  · simp only [hq1] at l1
    intro hq
    obtain ⟨b, hb⟩ := l1 hq
    refine ⟨b + 8, fun L depth hL hd => ?_⟩
    obtain ⟨er, e1⟩ := hb L (depth - 8 + 2) L hB 11 id1 10 12 7 _ env rawNil (by omega) (by omega) E1 (f1 _ h1) c1 cr
    refine ⟨er, ?_⟩
    rw [show depth = depth - 8 + 8 by omega, e0, tail14_eq, execs_file, e1]
    rfl
  · simp only [hq1] at l1
    obtain ⟨b, hb⟩ := l1
    refine ⟨b + 8, fun L depth hL hd => ?_⟩
    obtain ⟨h', e1⟩ := hb L (depth - 8 + 2) L hB 11 id1 10 12 7 _ env rawNil (by omega) (by omega) E1 (f1 _ h1) c1 cr
    refine ⟨_, h', ?_, isRaw_nil h'⟩
    rw [show depth = depth - 8 + 8 by omega, e0, tail14_eq, execs_file, e1, readingError_gbp]
    exact hret _ _ _ _
  · simp only [hq1] at l1
    obtain ⟨b, hb⟩ := l1
    -- after the first file
    have st1 : ∀ L d, b ≤ L → ∃ h x, FileAt m read h 13 id2 10 x t1 (newScanner rd2 0) ∧ h[14]? = some (.struct tScan [(name! "lineScan", .ptr tyScanner 13)]) ∧
        h[16]? = some (.struct tScan [(name! "lineScan", .ptr tyScanner 15)]) ∧ h[15]? = some (.scan id3 0 none) ∧ h[7]? = some (.struct tRaw rawNil) ∧
        buildSession gentable m L (d + 8) base [] = bindR (execs (ctx m L (d + 7)) L (dropS 1 tail14) 0 env h)
        (returned (ctx m L (d + 7)) [(0, .name (name! "RawPropertyTree")), (0, .name (name! "error"))]) := by
      intro L d hL
      obtain ⟨h', x', s', e1, f', r'⟩ := hb L (d + 2) L hB 11 id1 10 12 7 _ env rawNil hL hL E1 (f1 _ h1) c1 cr
      have k : ∀ b o, hB[b]? = some o → (∀ l, o ≠ .arr l) → b ≠ 11 → b ≠ 10 → h'[b]? = some o := r'.keep
      refine ⟨h', x', f'.other (by decide) (k _ _ s2 (fun l e => nomatch e) (by decide) (by decide)) h2,
        k _ _ c2 (fun l e => nomatch e) (by decide) (by decide), k _ _ c3 (fun l e => nomatch e) (by decide) (by decide),
        k _ _ s3 (fun l e => nomatch e) (by decide) (by decide), k _ _ cr (fun l e => nomatch e) (by decide) (by decide), ?_⟩
      rw [e0, tail14_eq, execs_file, e1, bindR_ok, leave_self]
      rfl
    have l2 := file_loop m read emojiEntry rest2 (rest2_spec m hW) (name! "emojiSc") (name! "reading emoji-data.txt: %w") fuel (newScanner rd2 0) t1
    simp only [bind, Except.bind]
    rcases hq2 : readFile read emojiEntry fuel (newScanner rd2 0) t1 with q | (e | t2)
    · simp only [hq2] at l2
      intro hq
      obtain ⟨b2, hb2⟩ := l2 hq
      refine ⟨b + b2 + 8, fun L depth hL hd => ?_⟩
      obtain ⟨h, x, f, d2, -, -, dr, e1⟩ := st1 L (depth - 8) (by omega)
      obtain ⟨er, e2⟩ := hb2 L (depth - 8 + 2) L h 13 id2 10 14 7 x env rawNil (by omega) (by omega) E2 f d2 dr
      refine ⟨er, ?_⟩
      rw [show depth = depth - 8 + 8 by omega, e1, tail14_eq, dropS, dropS, execs_file, e2]
      rfl
    · simp only [hq2] at l2
      obtain ⟨b2, hb2⟩ := l2
      refine ⟨b + b2 + 8, fun L depth hL hd => ?_⟩
      obtain ⟨h, x, f, d2, -, -, dr, e1⟩ := st1 L (depth - 8) (by omega)
      obtain ⟨h', e2⟩ := hb2 L (depth - 8 + 2) L h 13 id2 10 14 7 x env rawNil (by omega) (by omega) E2 f d2 dr
      refine ⟨_, h', ?_, isRaw_nil h'⟩
      rw [show depth = depth - 8 + 8 by omega, e1, tail14_eq, dropS, dropS, execs_file, e2, readingError_emoji]
      exact hret _ _ _ _
    · simp only [hq2] at l2
      obtain ⟨b2, hb2⟩ := l2
      -- after the second file
      have st2 : ∀ L d, b + b2 ≤ L → ∃ h x, FileAt m read h 15 id3 10 x t2 (newScanner rd3 0) ∧
          h[16]? = some (.struct tScan [(name! "lineScan", .ptr tyScanner 15)]) ∧ h[7]? = some (.struct tRaw rawNil) ∧
          buildSession gentable m L (d + 8) base [] = bindR (execs (ctx m L (d + 7)) L (dropS 2 tail14) 0 env h)
          (returned (ctx m L (d + 7)) [(0, .name (name! "RawPropertyTree")), (0, .name (name! "error"))]) := by
        intro L d hL
        obtain ⟨h, x, f, d2, d3, ds, dr, e1⟩ := st1 L d (by omega)
        obtain ⟨h', x', s', e2, f', r'⟩ := hb2 L (d + 2) L h 13 id2 10 14 7 x env rawNil (by omega) (by omega) E2 f d2 dr
        have k : ∀ b o, h[b]? = some o → (∀ l, o ≠ .arr l) → b ≠ 13 → b ≠ 10 → h'[b]? = some o := r'.keep
        refine ⟨h', x', f'.other (by decide) (k _ _ ds (fun l e => nomatch e) (by decide) (by decide)) h3,
          k _ _ d3 (fun l e => nomatch e) (by decide) (by decide), k _ _ dr (fun l e => nomatch e) (by decide) (by decide), ?_⟩
        rw [e1, tail14_eq, dropS, dropS, execs_file, e2, bindR_ok, leave_self]
        rfl
      have l3 := file_loop m read dcpEntry rest3 (rest3_spec m hW) (name! "dcpSc") (name! "reading DerivedCoreProperties.txt: %w") fuel (newScanner rd3 0) t2
      rcases hq3 : readFile read dcpEntry fuel (newScanner rd3 0) t2 with q | (e | t3)
      · simp only [hq3] at l3 ⊢
        intro hq
        obtain ⟨b3, hb3⟩ := l3 hq
        refine ⟨b + b2 + b3 + 8, fun L depth hL hd => ?_⟩
        obtain ⟨h, x, f, d3, dr, e1⟩ := st2 L (depth - 8) (by omega)
        obtain ⟨er, e2⟩ := hb3 L (depth - 8 + 2) L h 15 id3 10 16 7 x env rawNil (by omega) (by omega) E3 f d3 dr
        refine ⟨er, ?_⟩
        rw [show depth = depth - 8 + 8 by omega, e1, tail14_eq, dropS, dropS, dropS, execs_file, e2]
        rfl
      · simp only [hq3] at l3 ⊢
        obtain ⟨b3, hb3⟩ := l3
        refine ⟨b + b2 + b3 + 8, fun L depth hL hd => ?_⟩
        obtain ⟨h, x, f, d3, dr, e1⟩ := st2 L (depth - 8) (by omega)
        obtain ⟨h', e2⟩ := hb3 L (depth - 8 + 2) L h 15 id3 10 16 7 x env rawNil (by omega) (by omega) E3 f d3 dr
        refine ⟨_, h', ?_, isRaw_nil h'⟩
        rw [show depth = depth - 8 + 8 by omega, e1, tail14_eq, dropS, dropS, dropS, execs_file, e2, readingError_dcp]
        exact hret _ _ _ _
      · simp only [hq3] at l3
        obtain ⟨b3, hb3⟩ := l3
        have st3 : ∀ L d, b + b2 + b3 ≤ L → ∃ h x s, FileAt m read h 15 id3 10 x t3 s ∧ h[7]? = some (.struct tRaw rawNil) ∧
            buildSession gentable m L (d + 8) base [] = bindR (execs (ctx m L (d + 7)) L tail17 0 env h)
            (returned (ctx m L (d + 7)) [(0, .name (name! "RawPropertyTree")), (0, .name (name! "error"))]) := by
          intro L d hL
          obtain ⟨h, x, f, d3, dr, e1⟩ := st2 L d (by omega)
          obtain ⟨h', x', s', e2, f', r'⟩ := hb3 L (d + 2) L h 15 id3 10 16 7 x env rawNil (by omega) (by omega) E3 f d3 dr
          refine ⟨h', x', s', f', r'.keep _ _ dr (fun l e => nomatch e) (by decide) (by decide), ?_⟩
          rw [e1, tail14_eq, dropS, dropS, dropS, execs_file, e2, bindR_ok, leave_self]
          rfl
        rcases hc : t3.Compact with q | raw
        · simp only [hq3, hc]
          intro _
          refine ⟨b + b2 + b3 + 8, fun L depth hL hd => ?_⟩
          obtain ⟨h, x, s, f, dr, e1⟩ := st3 L (depth - 8) (by omega)
          have := tail17_spec m hW L (depth - 8) read h 15 id3 10 16 7 _ x t3 s rawNil env E3 f dr
          rw [hc] at this
          rw [show depth = depth - 8 + 8 by omega, e1]
          exact this
        · simp only [hq3, hc]
          refine ⟨b + b2 + b3 + 8, fun L depth hL hd => ?_⟩
          obtain ⟨h, x, s, f, dr, e1⟩ := st3 L (depth - 8) (by omega)
          have := tail17_spec m hW L (depth - 8) read h 15 id3 10 16 7 _ x t3 s rawNil env E3 f dr
          rw [hc] at this
          rw [show depth = depth - 8 + 8 by omega, e1]
          exact this

end Textseg.GoMem
