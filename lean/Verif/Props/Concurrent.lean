import Verif.Proofs.Concurrent
/-!
# C60: calls at the same time

`(Sys.start mem cs).Exec tr s`: the calls `ScanGraphemeClusters(c.1, c.2)` for the `c` in `cs` were started, each in its own
goroutine, with memory contents `mem`; then the accesses `tr` took place, in this order, made by the calls and by any other part
of the program; the outcome is `s`. A call that has returned is `.ret r` in `s.calls`.
-/

namespace Textseg

/-- **C60** Any number of calls may run at the same time, on the same or on overlapping slices, under any schedule, while the
rest of the program writes to other memory: a call whose slice nobody writes to returns exactly what it would have returned
alone, and the bytes of its token are still in place. -/
theorem C60_undisturbed (mem : Memory) (cs : List (Slice × Bool)) (tr : List (Who × Access)) (s : Sys)
    (hx : (Sys.start mem cs).Exec tr s) (i : Nat) (data : Slice) (atEOF : Bool) (hc : cs[i]? = some (data, atEOF))
    (hw : ∀ a b, (Who.other, Access.write a b) ∈ tr → ¬ (data.base ≤ a ∧ a < data.base + data.len))
    (r : Go SplitView) (hr : s.calls[i]? = some (.ret r)) :
    ∃ v, r = .ok v ∧ ScanGraphemeClusters (data.bytes mem) atEOF = .ok (v.contents s.mem) := by
  obtain ⟨p, hp1, hp2, -⟩ := exec_start hx hc
  rw [hr] at hp1
  cases hp1
  obtain ⟨v, hv, hv2⟩ := hp2
  have hw' : ∀ w a b, (w, Access.write a b) ∈ tr → ¬ data.Holds a := by
    intro w a b hm
    cases w with
    | other => exact hw a b hm
    | call j => obtain ⟨_, _, _, _, h, _⟩ := exec_reads hx hm; cases h
  obtain ⟨h1, h2⟩ := exec_eval hx i _ [] (start_calls hc) (all_ScanGraphemeClustersT data atEOF) hw'
  have h3 := h2 _ hr
  have h4 := eval_ScanGraphemeClustersT data mem atEOF
  have h5 : (ScanGraphemeClustersT data atEOF).eval mem = .ok v := by rw [← hv]; exact h3.symm
  rw [h5] at h4
  refine ⟨v, hv, ?_⟩
  rw [← h4]
  show Except.ok (v.contents mem) = _
  congr 1
  unfold SplitView.contents
  congr 1
  rcases hv2.2.2 with ⟨rfl, _⟩ | ⟨ha, hb, ht, _⟩
  · rfl
  · rw [ht]
    simp only [Option.map_some]
    congr 1
    apply bytes_congr
    intro a ⟨h6, h7⟩
    simp only at h6 h7 hb
    exact (h1 a ⟨h6, by omega⟩).symm

/-- **C60** A call only reads, and only in its slice: it writes nothing anywhere, so calls never disturb each other or the rest
of the program. -/
theorem C60_only_reads (mem : Memory) (cs : List (Slice × Bool)) (tr : List (Who × Access)) (s : Sys)
    (hx : (Sys.start mem cs).Exec tr s) (i : Nat) (acc : Access) (h : (Who.call i, acc) ∈ tr) :
    ∃ data atEOF a b, cs[i]? = some (data, atEOF) ∧ acc = .read a b ∧ data.base ≤ a ∧ a < data.base + data.len := by
  obtain ⟨⟨data, e⟩, a, b, h1, h2, h3⟩ := exec_reads hx h
  exact ⟨data, e, a, b, h1, h2, h3⟩

/-- **C60** Whatever the rest of the program does to the data while a call is under way, the call does not panic, and what it
returns makes sense: no error; nothing at all only if there may be more data (or there is none); otherwise between one byte and all
of the data, the token being exactly the bytes advanced over; and it has looked at most at the three bytes after the next one. -/
theorem C60_disturbed (mem : Memory) (cs : List (Slice × Bool)) (tr : List (Who × Access)) (s : Sys)
    (hx : (Sys.start mem cs).Exec tr s) (i : Nat) (data : Slice) (atEOF : Bool) (hc : cs[i]? = some (data, atEOF))
    (r : Go SplitView) (hr : s.calls[i]? = some (.ret r)) :
    ∃ v, r = .ok v ∧ v.err = none ∧
      ((v.advance = 0 ∧ v.token = none ∧ (atEOF = false ∨ data.len = 0)) ∨
       (1 ≤ v.advance ∧ v.advance ≤ data.len ∧ v.token = some ⟨data.base, v.advance⟩ ∧
        ∀ a b, (Who.call i, Access.read a b) ∈ tr → a < data.base + v.advance + 4)) := by
  obtain ⟨p, hp1, hp2, -⟩ := exec_start hx hc
  rw [hr] at hp1
  cases hp1
  obtain ⟨v, hv, -, h1, h2⟩ := hp2
  refine ⟨v, hv, h1, ?_⟩
  rcases h2 with ⟨rfl, h3⟩ | ⟨h3, h4, h5, h6⟩
  · refine Or.inl ⟨rfl, rfl, ?_⟩
    cases he : atEOF
    · exact Or.inl rfl
    · exact Or.inr (h3 he)
  · refine Or.inr ⟨h3, h4, h5, ?_⟩
    intro a b hm
    apply h6
    unfold readsOf
    rw [List.mem_filterMap]
    exact ⟨_, hm, by simp⟩

/-- **C60** A call never waits for anybody, and it is done after at most two steps of its own for each byte of its data, whatever
the others do: if it has not returned, it has made fewer steps than that and can make one now. -/
theorem C60_wait_free (mem : Memory) (cs : List (Slice × Bool)) (tr : List (Who × Access)) (s : Sys)
    (hx : (Sys.start mem cs).Exec tr s) (i : Nat) (data : Slice) (atEOF : Bool) (hc : cs[i]? = some (data, atEOF)) :
    (tr.filter fun e => e.1 = .call i).length ≤ 2 * data.len ∧
    ((∃ r, s.calls[i]? = some (.ret r)) ∨
     ((tr.filter fun e => e.1 = .call i).length < 2 * data.len ∧ ∃ acc s', s.Step (.call i, acc) s')) := by
  obtain ⟨p, hp1, hp2, hp3⟩ := exec_start hx hc
  have hlen := readsOf_length i (tr := tr) (fun acc hm => by
    obtain ⟨a, b, h, _⟩ := hp3 acc hm; exact ⟨a, b, h⟩)
  have bound : ∀ (p : Proc SplitView) h, p.All data.Holds (ScanOut data atEOF) h → h.length ≤ 2 * data.len := by
    intro p
    induction p with
    | ret r => rintro h ⟨v, -, h1, -⟩; exact h1
    | read a k ih =>
      intro h hq
      have := ih 0 _ (hq.2 0)
      simp only [List.length_append, List.length_cons, List.length_nil] at this
      omega
    | write a b k ih => intro h hq; exact hq.elim
  refine ⟨hlen ▸ bound p _ hp2, ?_⟩
  cases p with
  | ret r => exact Or.inl ⟨r, hp1⟩
  | read a k =>
    refine Or.inr ⟨?_, _, _, .read s i a k hp1⟩
    have := bound _ _ (hp2.2 0)
    simp only [List.length_append, List.length_cons, List.length_nil] at this
    omega
  | write a b k => exact hp2.elim

/-- If only calls are running, the memory stays as it was. -/
theorem C60_memory_unchanged (mem : Memory) (cs : List (Slice × Bool)) (tr : List (Who × Access)) (s : Sys)
    (hx : (Sys.start mem cs).Exec tr s) (hw : ∀ acc, (Who.other, acc) ∉ tr) : s.mem = mem := by
  have hr : ∀ w a b, (w, Access.write a b) ∉ tr := by
    intro w a b hm
    cases w with
    | other => exact hw _ hm
    | call j => obtain ⟨_, _, _, _, h, _⟩ := exec_reads hx hm; cases h
  have : ∀ {s s' : Sys} {tr : List (Who × Access)}, s.Exec tr s' → (∀ w a b, (w, Access.write a b) ∉ tr) →
      s'.mem = s.mem := by
    intro s s' tr hx
    induction hx with
    | nil s => intro _; rfl
    | cons s s1 s2 e tr hs hx ih =>
      intro hn
      rw [ih fun w a b hm => hn w a b (List.mem_cons_of_mem _ hm)]
      cases hs with
      | read => rfl
      | write i a b k hk => exact absurd (List.mem_cons_self ..) (hn _ a b)
      | other a b => exact absurd (List.mem_cons_self ..) (hn _ a b)
  exact this hx hr

/-! ## The hypotheses can be met -/

/-- Next read of call `i`, as a function (to build executions). -/
private def stepCall (s : Sys) (i : Nat) : Sys :=
  match s.calls[i]? with
  | some (.read a k) => ⟨s.mem, s.calls.set i (k (s.mem a))⟩
  | _ => s

private def reads? (s : Sys) (i : Nat) : Option Nat :=
  match s.calls[i]? with
  | some (.read a _) => some a
  | _ => none

private def done? (s : Sys) (i : Nat) : Option (Go SplitView) :=
  match s.calls[i]? with
  | some (.ret r) => some r
  | _ => none

private theorem done_of {s : Sys} {i : Nat} {r : Go SplitView} (h : done? s i = some r) : s.calls[i]? = some (.ret r) := by
  unfold done? at h
  split at h
  · next hc => cases h; exact hc
  · cases h

private theorem step_of {s : Sys} {i a : Nat} (h : reads? s i = some a) :
    s.Step (.call i, .read a (s.mem a)) (stepCall s i) := by
  unfold reads? at h
  split at h
  · next k hc => cases h; unfold stepCall; simp only [hc]; exact .read s i _ k hc
  · cases h

/-- Two calls on overlapping slices of "e\u0301\r\n" (bytes 0 to 4), interleaved, while something else is written at address 5. -/
private def mem₁ : Memory := fun a => [0x65, 0xCC, 0x81, 0x0D, 0x0A].getD a 0

private def t0 : Sys := Sys.start mem₁ [(⟨0, 5⟩, true), (⟨3, 2⟩, true)]
private def t1 : Sys := stepCall t0 0
private def t2 : Sys := stepCall t1 1
private def t3 : Sys := ⟨t2.mem.set 5 7, t2.calls⟩
private def t4 : Sys := stepCall t3 1
private def t5 : Sys := stepCall t4 0
private def t6 : Sys := stepCall t5 0
private def t7 : Sys := stepCall t6 0
private def t8 : Sys := stepCall t7 0

example : ∃ tr, t0.Exec tr t8 ∧ (∀ a b, (Who.other, Access.write a b) ∈ tr → ¬ (0 ≤ a ∧ a < 0 + 5)) ∧
    t8.calls[0]? = some (.ret (.ok ⟨3, some ⟨0, 3⟩, none⟩)) ∧ t8.calls[1]? = some (.ret (.ok ⟨2, some ⟨3, 2⟩, none⟩)) := by
  refine ⟨_, .cons _ t1 _ _ _ (step_of (a := 0) (by decide +kernel)) <| .cons _ t2 _ _ _ (step_of (a := 3) (by decide +kernel)) <|
    .cons _ t3 _ _ _ (.other t2 5 7) <| .cons _ t4 _ _ _ (step_of (a := 4) (by decide +kernel)) <|
    .cons _ t5 _ _ _ (step_of (a := 1) (by decide +kernel)) <| .cons _ t6 _ _ _ (step_of (a := 2) (by decide +kernel)) <|
    .cons _ t7 _ _ _ (step_of (a := 2) (by decide +kernel)) <| .cons _ t8 _ _ _ (step_of (a := 3) (by decide +kernel)) <| .nil _,
    ?_, done_of (by decide +kernel), done_of (by decide +kernel)⟩
  intro a b h
  simp at h
  omega

/-! ## The restriction is needed -/

private theorem mem_after {s s' : Sys} {tr : List (Who × Access)} (hx : s.Exec tr s') :
    s'.mem = tr.foldl (fun m e => match e.2 with | .write a b => Memory.set m a b | .read _ _ => m) s.mem := by
  induction hx with
  | nil s => rfl
  | cons s s1 s2 e tr hs hx ih => rw [ih]; cases hs <;> rfl

private def mem₂ : Memory := fun a => [0x0D, 0x41].getD a 0
private def u0 : Sys := Sys.start mem₂ [(⟨0, 2⟩, true)]
private def u1 : Sys := stepCall u0 0
private def u2 : Sys := ⟨u1.mem.set 0 0x42, u1.calls⟩
private def u3 : Sys := ⟨u2.mem.set 1 0x0A, u2.calls⟩
private def u4 : Sys := stepCall u3 0

private def utr : List (Who × Access) :=
  [(.call 0, .read 0 0x0D), (.other, .write 0 0x42), (.other, .write 1 0x0A), (.call 0, .read 1 0x0A)]

private theorem split4 {α : Type} {x y z w : α} {l r : List α} (h : [x, y, z, w] = l ++ r) :
    l = [] ∨ l = [x] ∨ l = [x, y] ∨ l = [x, y, z] ∨ l = [x, y, z, w] := by
  rcases l with _ | ⟨a, _ | ⟨b, _ | ⟨c, _ | ⟨d, _ | ⟨e, l⟩⟩⟩⟩⟩ <;>
    simp only [List.cons_append, List.nil_append, List.cons.injEq] at h
  · simp
  · simp [h.1]
  · simp [h.1, h.2.1]
  · simp [h.1, h.2.1, h.2.2.1]
  · simp [h.1, h.2.1, h.2.2.1, h.2.2.2.1]
  · simp at h

/-- **C60** The restriction of `C60_undisturbed` is needed: if its slice is written to while a call is under way, the call can
return a result that is right for the contents of the slice at no moment between its start and its end. (Here "\r" followed by
"A" becomes "B" followed by "\n", byte by byte, and the call finds the cluster "\r\n".) So a caller who shares a buffer must
keep writers out for the whole call. -/
theorem C60_race : ∃ (mem : Memory) (data : Slice) (tr : List (Who × Access)) (s : Sys) (v : SplitView),
    (Sys.start mem [(data, true)]).Exec tr s ∧ s.calls[0]? = some (.ret (.ok v)) ∧
    ∀ tr₁ tr₂ s₁, tr = tr₁ ++ tr₂ → (Sys.start mem [(data, true)]).Exec tr₁ s₁ →
      ∃ r, ScanGraphemeClusters (data.bytes s₁.mem) true = .ok r ∧ r.advance ≠ v.advance := by
  refine ⟨mem₂, ⟨0, 2⟩, utr, u4, ⟨2, some ⟨0, 2⟩, none⟩, ?_, done_of (by decide +kernel), ?_⟩
  · exact .cons _ u1 _ _ _ (step_of (s := u0) (a := 0) (by decide +kernel)) <| .cons _ u2 _ _ _ (.other u1 0 0x42) <|
      .cons _ u3 _ _ _ (.other u2 1 0x0A) <| .cons _ u4 _ _ _ (step_of (s := u3) (a := 1) (by decide +kernel)) <| .nil _
  · intro tr₁ tr₂ s₁ h hx
    rw [mem_after hx]
    rcases split4 h with rfl | rfl | rfl | rfl | rfl
    · exact ⟨⟨1, some [0x0D], none⟩, by decide +kernel, by decide⟩
    · exact ⟨⟨1, some [0x0D], none⟩, by decide +kernel, by decide⟩
    · exact ⟨⟨1, some [0x42], none⟩, by decide +kernel, by decide⟩
    · exact ⟨⟨1, some [0x42], none⟩, by decide +kernel, by decide⟩
    · exact ⟨⟨1, some [0x42], none⟩, by decide +kernel, by decide⟩

end Textseg
