import Verif.Spec.GenMain
import Verif.Proofs.GenFiles
/-!
# The generator as a command
-/

namespace Textseg.Gen
open Textseg Spec Scanner

variable {σ : Type}

/-- The error without its wrapping. -/
def GenErr.unwrap : GenErr → ParseErr
  | .reading _ e => e
  | _ => .io .eof

theorem readTree_erase (read : Reader σ) (fuel : Nat) (rd1 rd2 rd3 : σ) :
    BuildRawPropertyTree read fuel rd1 rd2 rd3 = (readTree read fuel rd1 rd2 rd3).map fun r => r.mapError GenErr.unwrap := by
  unfold BuildRawPropertyTree readTree
  simp only [bind, Except.bind]
  cases readFile read gbpEntry fuel (newScanner rd1 0) newTree with
  | error p => rfl
  | ok r =>
    cases r with
    | error e => rfl
    | ok t =>
      simp only
      cases readFile read emojiEntry fuel (newScanner rd2 0) t with
      | error p => rfl
      | ok r =>
        cases r with
        | error e => rfl
        | ok t =>
          simp only
          cases readFile read dcpEntry fuel (newScanner rd3 0) t with
          | error p => rfl
          | ok r =>
            cases r with
            | error e => rfl
            | ok t =>
              simp only
              cases t.Compact with
              | error p => rfl
              | ok raw => rfl

theorem readTree_ok {read : Reader σ} {fuel : Nat} {rd1 rd2 rd3 : σ} {raw : RawPropertyTree} :
    readTree read fuel rd1 rd2 rd3 = .ok (.ok raw) ↔ BuildRawPropertyTree read fuel rd1 rd2 rd3 = .ok (.ok raw) := by
  rw [readTree_erase]
  cases readTree read fuel rd1 rd2 rd3 with
  | error p => simp [Except.map]
  | ok r => cases r <;> simp [Except.map, Except.mapError]

/-- A file was opened for reading, and it is one of the data files. -/
def IsOpening (ev : Event) : Prop := ev = .opened gbpPath ∨ ev = .opened emojiPath ∨ ev = .opened dcpPath

theorem buildTree_shape (os : OS σ) (fuel : Nat) :
    (∀ ev ∈ (buildTree os fuel).1, IsOpening ev) ∧
    ∀ raw, (buildTree os fuel).2 = .ok (.ok raw) → ∃ rd1 rd2 rd3, os.openFile gbpPath = .ok rd1 ∧ os.openFile emojiPath = .ok rd2 ∧
      os.openFile dcpPath = .ok rd3 ∧ BuildRawPropertyTree os.read fuel rd1 rd2 rd3 = .ok (.ok raw) := by
  unfold buildTree
  cases h1 : os.openFile gbpPath with
  | error m => refine ⟨by simp, fun raw h => ?_⟩; simp at h
  | ok rd1 =>
    simp only
    cases h2 : os.openFile emojiPath with
    | error m => refine ⟨by simp [IsOpening], fun raw h => ?_⟩; simp at h
    | ok rd2 =>
      simp only
      cases h3 : os.openFile dcpPath with
      | error m => refine ⟨by simp [IsOpening], fun raw h => ?_⟩; simp at h
      | ok rd3 =>
        simp only
        exact ⟨by simp [IsOpening], fun raw h => ⟨rd1, rd2, rd3, rfl, rfl, rfl, readTree_ok.mp h⟩⟩

/-- What `main` does. -/
inductive MainShape (os : OS σ) (formatSource : GoString → Except String GoString) (fuel : Nat) : List Event → Exit → Prop
  | panicked (pre : List Event) (p : GoPanic) : (∀ ev ∈ pre, IsOpening ev) → MainShape os formatSource fuel pre (.panicked p)
  | failed (pre : List Event) (e : GenErr) : (∀ ev ∈ pre, IsOpening ev) → MainShape os formatSource fuel (pre ++ [.message e]) (.status 1)
  | done (pre : List Event) (rd1 rd2 rd3 : σ) (raw : RawPropertyTree) (buf src : GoString) : (∀ ev ∈ pre, IsOpening ev) →
      os.openFile gbpPath = .ok rd1 → os.openFile emojiPath = .ok rd2 → os.openFile dcpPath = .ok rd3 →
      BuildRawPropertyTree os.read fuel rd1 rd2 rd3 = .ok (.ok raw) → printSource raw = .ok buf → formatSource buf = .ok src →
      os.create tablePath = .ok () →
      MainShape os formatSource fuel (pre ++ .created tablePath :: (src.take (os.write src)).map (.stored tablePath)) (.status 0)

theorem main_shape (os : OS σ) (formatSource : GoString → Except String GoString) (fuel : Nat) :
    MainShape os formatSource fuel (main os formatSource fuel).1 (main os formatSource fuel).2 := by
  obtain ⟨h1, h2⟩ := buildTree_shape os fuel
  unfold main
  generalize buildTree os fuel = r at h1 h2
  obtain ⟨evs, r⟩ := r
  match r, h2 with
  | .error p, _ => exact .panicked evs p h1
  | .ok (.error e), _ => exact .failed evs e h1
  | .ok (.ok raw), h2 =>
    obtain ⟨rd1, rd2, rd3, o1, o2, o3, hb⟩ := h2 raw rfl
    simp only
    cases hs : printSource raw with
    | error p => exact .panicked evs p h1
    | ok buf =>
      simp only [writeTable]
      cases hf : formatSource buf with
      | error m => exact .failed evs _ h1
      | ok src =>
        simp only
        cases hc : os.create tablePath with
        | error m => exact .failed evs _ h1
        | ok _ => exact .done evs rd1 rd2 rd3 raw buf src h1 o1 o2 o3 hb hs hf hc

/-! ## Contents -/

theorem contentAfter_append (path : String) : ∀ (a b : List Event) (c : Option (List UInt8)),
    contentAfter path c (a ++ b) = contentAfter path (contentAfter path c a) b
  | [], _, _ => rfl
  | .created p :: a, b, c => by simp only [List.cons_append, contentAfter]; exact contentAfter_append path a b _
  | .stored p x :: a, b, c => by simp only [List.cons_append, contentAfter]; exact contentAfter_append path a b _
  | .opened p :: a, b, c => by simp only [List.cons_append, contentAfter]; exact contentAfter_append path a b _
  | .message p :: a, b, c => by simp only [List.cons_append, contentAfter]; exact contentAfter_append path a b _

/-- An event that changes no file. -/
def Harmless (ev : Event) : Prop := (∃ p, ev = .opened p) ∨ ∃ e, ev = .message e

theorem IsOpening.harmless {ev : Event} (h : IsOpening ev) : Harmless ev := by
  rcases h with rfl | rfl | rfl <;> exact .inl ⟨_, rfl⟩

theorem contentAfter_harmless (path : String) (c : Option (List UInt8)) : ∀ (a : List Event), (∀ ev ∈ a, Harmless ev) →
    contentAfter path c a = c
  | [], _ => rfl
  | ev :: a, h => by
    have ih := contentAfter_harmless path c a fun x hx => h x (List.mem_cons_of_mem _ hx)
    rcases h ev (by simp) with ⟨p, rfl⟩ | ⟨e, rfl⟩ <;> exact ih

theorem contentAfter_stored (path : String) : ∀ (bs done : List UInt8),
    contentAfter path (some done) (bs.map (.stored path)) = some (done ++ bs)
  | [], done => by simp [contentAfter]
  | b :: bs, done => by
    simp only [List.map_cons, contentAfter, if_true, Option.map_some]
    rw [contentAfter_stored path bs]
    simp

theorem prefix_map_stored {path : String} {evs : List Event} : ∀ {bs : List UInt8}, evs <+: bs.map (.stored path) →
    ∃ k, evs = (bs.take k).map (.stored path) := by
  intro bs h
  refine ⟨evs.length, ?_⟩
  rw [List.map_take]
  exact List.prefix_iff_eq_take.mp h

/-- The states of the file in which the run can be interrupted. -/
theorem content_of_prefix {os : OS σ} {formatSource fuel evs exit} (h : MainShape os formatSource fuel evs exit)
    {part : List Event} (hp : part <+: evs) (old : Option (List UInt8)) :
    contentAfter tablePath old part = old ∨
    ∃ rd1 rd2 rd3 raw buf src k, os.openFile gbpPath = .ok rd1 ∧ os.openFile emojiPath = .ok rd2 ∧ os.openFile dcpPath = .ok rd3 ∧
      BuildRawPropertyTree os.read fuel rd1 rd2 rd3 = .ok (.ok raw) ∧ printSource raw = .ok buf ∧ formatSource buf = .ok src ∧
      os.create tablePath = .ok () ∧ exit = .status 0 ∧ contentAfter tablePath old part = some (src.take k) ∧
      k ≤ os.write src := by
  have sub : ∀ ev ∈ part, ev ∈ evs := fun ev hm => by obtain ⟨t, rfl⟩ := hp; simp [hm]
  cases h with
  | panicked pre p h1 => exact .inl (contentAfter_harmless _ _ _ fun ev hm => (h1 ev (sub ev hm)).harmless)
  | failed pre e h1 =>
    refine .inl (contentAfter_harmless _ _ _ fun ev hm => ?_)
    have := sub ev hm
    rw [List.mem_append] at this
    rcases this with h | h
    · exact (h1 ev h).harmless
    · exact .inr ⟨e, by simpa using h⟩
  | done pre rd1 rd2 rd3 raw buf src h1 o1 o2 o3 hb hs hf hc =>
    obtain ⟨t, ht⟩ := hp
    have hcase : (∃ r, pre = part ++ r) ∨ ∃ tl, part = pre ++ tl ∧
        tl <+: .created tablePath :: (src.take (os.write src)).map (.stored tablePath) := by
      rcases List.append_eq_append_iff.mp ht with ⟨a, h2, h3⟩ | ⟨a, h2, h3⟩
      · exact .inl ⟨a, h2⟩
      · exact .inr ⟨a, h2, t, h3.symm⟩
    rcases hcase with ⟨r, rfl⟩ | ⟨tl, rfl, h⟩
    · refine .inl (contentAfter_harmless _ _ _ fun ev hm => ?_)
      exact (h1 ev (by simp [hm])).harmless
    · rw [contentAfter_append, contentAfter_harmless _ _ _ fun ev hm => (h1 ev hm).harmless]
      cases tl with
      | nil => exact .inl rfl
      | cons ev tl =>
        rw [List.cons_prefix_cons] at h
        obtain ⟨rfl, h⟩ := h
        obtain ⟨k, rfl⟩ := prefix_map_stored h
        refine .inr ⟨rd1, rd2, rd3, raw, buf, src, min k (os.write src), o1, o2, o3, hb, hs, hf, hc, rfl, ?_, by omega⟩
        simp only [contentAfter, if_true]
        rw [contentAfter_stored, List.take_take, List.nil_append]

/-! ## Bad files -/

theorem readTree_bad {read : Reader σ} {rd1 rd2 rd3 : σ} {fuel E1 E2 E3 es1 es2 es3 fe1 fe2 fe3}
    (h1 : DataFile read rd1 E1 fuel es1 fe1) (h2 : DataFile read rd2 E2 fuel es2 fe2) (h3 : DataFile read rd3 E3 fuel es3 fe3)
    (hc : ¬ Conflict (fileOps LookupGCBProperty LookupInCBProperty es1 es2 es3))
    (hbad : ¬ (Complete E1 fe1 ∧ Complete E2 fe2 ∧ Complete E3 fe3)) :
    ∃ e, readTree read fuel rd1 rd2 rd3 = .ok (.error e) ∧ FirstBad E1 E2 E3 fe1 fe2 fe3 e := by
  have hnc : ∀ {a b : List TableOp}, ¬ Conflict (a ++ b) → ¬ Conflict a := fun h h' => h (conflict_append _ h')
  have run : ∀ {a : List TableOp}, ¬ Conflict a → ∃ t, runOps newTree a = .ok t := by
    intro a h
    rcases runOps_new a with ⟨hc, _⟩ | ⟨_, t, _, _, ht, _⟩
    · exact absurd hc h
    · exact ⟨t, ht⟩
  obtain ⟨r1, g1, k1⟩ := readFile_data h1 (op := gbpEntry) (fun e x h hx t => gbpEntry_eq h hx t)
  obtain ⟨r2, g2, k2⟩ := readFile_data h2 (op := emojiEntry) (fun e x h hx t => emojiEntry_eq h hx t)
  obtain ⟨r3, g3, k3⟩ := readFile_data h3 (op := dcpEntry) (fun e x h hx t => dcpEntry_eq h hx t)
  unfold fileOps at hc
  obtain ⟨t1, j1⟩ := run (hnc hc)
  rw [← List.append_assoc] at hc
  obtain ⟨t2, j2⟩ := run (hnc hc)
  obtain ⟨t3, j3⟩ := run hc
  rw [runOps_append, j2] at j3
  rw [runOps_append, j1] at j2
  simp only [bind, Except.bind] at j2 j3
  unfold readTree
  rw [k1]
  simp only [bind, Except.bind, j1]
  cases r1 with
  | error e => exact ⟨_, rfl, .inl ⟨(endIs_error g1).1, e, rfl, (endIs_error g1).2⟩⟩
  | ok _ =>
    simp only [Except.map, k2, bind, Except.bind, j2]
    cases r2 with
    | error e => exact ⟨_, rfl, .inr (.inl ⟨endIs_ok g1, (endIs_error g2).1, e, rfl, (endIs_error g2).2⟩)⟩
    | ok _ =>
      simp only [k3, bind, Except.bind, j3]
      cases r3 with
      | error e => exact ⟨_, rfl, .inr (.inr ⟨endIs_ok g1, endIs_ok g2, (endIs_error g3).1, e, rfl, (endIs_error g3).2⟩)⟩
      | ok _ => exact absurd ⟨endIs_ok g1, endIs_ok g2, endIs_ok g3⟩ hbad

end Textseg.Gen
