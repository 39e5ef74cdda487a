import Verif.Proofs.StreamCost
import Verif.Props.Streaming
import Verif.Props.Rules
import Verif.Props.Conformance
/-!
# The work of streaming (C59)

`(newScanner rd b0).collectC ScanGraphemeClustersC read M fuel` is the loop of Props/Streaming.lean, which also counts: the calls
of the reader's `Read`, the calls of the split function, and the calls of `LookupFirstChar` that the latter makes.
-/

namespace Textseg.Props
open Textseg Spec Scanner

/-- C59: counting changes nothing. -/
theorem C59_counting_is_transparent {σ : Type} (read : Reader σ) (M fuel : Nat) (s : Scanner σ) :
    (s.collectC ScanGraphemeClustersC read M fuel).map (fun x => (x.1, x.2.1)) = s.collect ScanGraphemeClusters read M fuel :=
  collectC_erase scanC_erase read M fuel s

/-- C59: for any reader and any buffer: the split function is called at most once for each token and each read, and once more;
and with every cluster of the input having at most `L` bytes, the number of lookups is at most the number of bytes and of
tokens, plus `L + 3` for each read. -/
theorem C59_work {σ : Type} (read : Reader σ) (E : IOErr) (rd : σ) (D : List UInt8) (b0 M : Nat)
    (hC : 0 < max b0 M) (h : Delivers read E rd D 0) (toks : List (List UInt8)) (ht : tokens D = .ok toks)
    (L : Nat) (hL : ∀ t ∈ toks, t.length ≤ L) (fuel : Nat) (hf : D.length < fuel) :
    ∃ emitted e w, (newScanner rd b0).collectC ScanGraphemeClustersC read M fuel = .ok (emitted, e, w) ∧
      emitted <+: toks ∧ w.calls ≤ emitted.length + w.reads + 1 ∧
      w.lookups ≤ D.length + emitted.length + w.reads * (L + 3) := by
  obtain ⟨t, F, h1, h2⟩ := stream_spec goodSplit_grapheme read E rd D b0 M hC h
  have hall := splitsTo_iff_tokens.mpr ht
  have he := C59_counting_is_transparent read M fuel (newScanner rd b0)
  rw [h2 fuel hf] at he
  cases hc : (newScanner rd b0).collectC ScanGraphemeClustersC read M fuel with
  | error x => rw [hc] at he; cases he
  | ok x =>
    obtain ⟨emitted, e, w⟩ := x
    rw [hc] at he
    simp only [Except.map, Except.ok.injEq, Prod.mk.injEq] at he
    obtain ⟨rfl, -⟩ := he
    have hpre : emitted <+: toks := by
      rcases streams_cases hC h1 hall with ⟨i1, _⟩ | ⟨k, i1, _⟩
      · rw [i1]; exact List.prefix_rfl
      · rw [i1]; exact List.take_prefix k toks
    obtain ⟨w1, w2⟩ := collectC_work fuel _ D toks _ _ w (newScanner_at read E rd D b0 M hC h) hall hL hc
    refine ⟨_, _, w, rfl, hpre, w1, ?_⟩
    have hwin : (newScanner rd b0).win = [] := by simp [win, newScanner]
    rw [if_pos hwin] at w2
    have hlen : emitted.flatten.length ≤ D.length := by
      obtain ⟨q, hq⟩ := hpre
      obtain ⟨toks', g1, g2, -⟩ := C04_tokens_partition_input D
      rw [ht] at g1
      cases g1
      rw [← g2, ← hq, List.flatten_append, List.length_append]
      omega
    omega

/-- C59: a reader that gives at most one byte per read makes the work quadratic in the length of a cluster: every call starts
again at the beginning of the cluster. -/
theorem C59_slow_reader {σ : Type} (read : Reader σ) (hslow : ∀ s room, (read s room).n ≤ 1) (E : IOErr) (rd : σ) (D : List UInt8)
    (b0 M : Nat) (h : Delivers read E rd D 0) (ht : tokens D = .ok [D]) (hC : D.length < max b0 M)
    (fuel : Nat) (hf : D.length < fuel) :
    ∃ emitted e w, (newScanner rd b0).collectC ScanGraphemeClustersC read M fuel = .ok (emitted, e, w) ∧
      D.length * (D.length - 1) ≤ 8 * w.lookups := by
  obtain ⟨em, e, w, h1, -⟩ := C59_work read E rd D b0 M (by omega) h _ ht D.length (by simp) fuel hf
  refine ⟨em, e, w, h1, ?_⟩
  have hall := splitsTo_iff_tokens.mpr ht
  cases hall with
  | cons _ r tok toks a1 a2 a3 a4 a5 =>
    obtain ⟨c1, _, c3⟩ := C02_token_is_consumed_prefix D true r a2
    have h0 := congrArg List.length (c3 D a3)
    rw [List.length_take] at h0
    have := collectC_slow hslow a2 (by omega) hC fuel (newScanner rd b0) em e w
      (newScanner_at read E rd D b0 M (by omega) h) rfl (by simp [win, newScanner]) h1
    rw [Nat.mul_sub, Nat.mul_one]
    omega

theorem single_cluster (base : Char) (marks : List Char) (hbase : ¬ isCtlChar base)
    (hm : ∀ m ∈ marks, gcbOf m = .Extend ∨ gcbOf m = .ZWJ ∨ gcbOf m = .SpacingMark) :
    tokens (utf8 (base :: marks)) = .ok [utf8 (base :: marks)] := by
  obtain ⟨segs, h1, h2⟩ := C05_conforms_to_UAX29 (base :: marks)
  have hu := C16_base_and_marks [] [] base marks hbase hm (segs.map utf8) (by simpa using h2)
  match segs, h1, h2, hu with
  | [], h1, _, _ => cases h1.concat
  | [s], h1, h2, _ =>
    have : s = base :: marks := by simpa using h1.concat
    rw [h2, this]; rfl
  | s :: t :: rest, h1, _, hu =>
    have h3 := hu s (t ++ rest.flatten) (by simpa using h1.concat.symm) (h1.nonempty s (by simp))
      (fun h => h1.nonempty t (by simp) (List.append_eq_nil_iff.mp h).1)
    exact absurd ⟨1, by simp⟩ h3

/-- C59: so it is for a base with any number of combining marks that fits into the default buffer, read by the `dripReader` of the
tests. -/
theorem C59_quadratic (base : Char) (marks : List Char) (hbase : ¬ isCtlChar base)
    (hm : ∀ m ∈ marks, gcbOf m = .Extend ∨ gcbOf m = .ZWJ ∨ gcbOf m = .SpacingMark)
    (hC : (utf8 (base :: marks)).length < maxScanTokenSize) :
    ∃ w, (newScanner (utf8 (base :: marks)) 0).collectC ScanGraphemeClustersC dripReader maxScanTokenSize
        ((utf8 (base :: marks)).length + 1) = .ok ([utf8 (base :: marks)], none, w) ∧
      (utf8 (base :: marks)).length * ((utf8 (base :: marks)).length - 1) ≤ 8 * w.lookups := by
  have ht := single_cluster base marks hbase hm
  have hd := dripReader_delivers (utf8 (base :: marks))
  obtain ⟨em, e, w, h1, h2⟩ := C59_slow_reader dripReader (by
    intro s room
    unfold dripReader
    split
    · simp
    · split <;> simp) .eof _ _ 0 maxScanTokenSize hd ht (by simpa using hC) _ (Nat.lt_succ_self _)
  have he := C59_counting_is_transparent dripReader maxScanTokenSize ((utf8 (base :: marks)).length + 1) (newScanner (utf8 (base :: marks)) 0)
  rw [h1, C11_emits_the_tokens dripReader .eof _ _ 0 maxScanTokenSize (by decide) hd _ ht (by
    rintro k ⟨ho, _⟩
    have : ((List.drop k [utf8 (base :: marks)]).flatten).length ≤ (utf8 (base :: marks)).length := by
      cases k <;> simp
    omega) _ (Nat.lt_succ_self _)] at he
  cases he
  exact ⟨w, h1, h2⟩

/-- "e" with three accents: 7 bytes. Byte by byte: 8 reads, 9 calls, 23 lookups. All at once: 2 reads, 3 calls, 8 lookups. -/
example : (newScanner (utf8 ['e', '\u0301', '\u0301', '\u0301']) 0).collectC ScanGraphemeClustersC dripReader maxScanTokenSize 8 =
      .ok ([utf8 ['e', '\u0301', '\u0301', '\u0301']], none, ⟨8, 9, 23⟩) ∧
    (newScanner (utf8 ['e', '\u0301', '\u0301', '\u0301']) 0).collectC ScanGraphemeClustersC bytesReader maxScanTokenSize 8 =
      .ok ([utf8 ['e', '\u0301', '\u0301', '\u0301']], none, ⟨2, 3, 8⟩) := by decide +kernel

end Textseg.Props
