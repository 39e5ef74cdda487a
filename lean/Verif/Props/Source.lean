import Verif.Spec.Source
import Verif.Proofs.Source
import Verif.Proofs.SourceTables
import Verif.Proofs.GoNames
import Verif.Proofs.GoScan
import Verif.Props.Split
import Verif.Props.Conformance
import Verif.Props.Lookup
import Verif.Props.Streaming
import Verif.Proofs.SplitCongr
/-!
# C66: the source texts of the library, executed according to the language specification

Up to here the properties are about functions that were written down by hand after the Go code. This is the connection: the texts of
the five source files are parsed, the syntax trees are executed by an interpreter for the part of Go that they use, and the result
is always what the hand-written functions give. So the properties hold of the texts.
-/

namespace Textseg.Props
open Textseg Spec GoLang

theorem parseAll_cons {s : List Nat} {ss : List (List Nat)} {f : File} {fs : Program} (h : parseSource s = some f)
    (hs : parseAll ss = some fs) : parseAll (s :: ss) = some (f :: fs) := by
  rw [parseAll, h, hs]
  rfl

/-- The texts are accepted by the parser. -/
theorem C66_parsed : parseAll sources = some library :=
  parseAll_cons parse_graphemeClusters (parseAll_cons parse_state (parseAll_cons parse_propertyTable (parseAll_cons parse_properties
    (parseAll_cons parse_tables rfl))))

theorem is_library {prog : Program} (h : parseAll sources = some prog) : prog = library :=
  (Option.some.inj (h.symm.trans C66_parsed))

theorem outcome_of {prog : Program} {W : Nat} {ref : Ref} {r : R (List Val)} (h : parseAll sources = some prog) (b k : Nat)
    (hr : ∀ L d, b ≤ L → run library W L (d + k) ref = r) : Outcome prog W ref r := by
  cases is_library h
  refine ⟨b + k, fun L depth hL hd => ?_⟩
  rw [show depth = (depth - k) + k by omega]
  exact hr L (depth - k) (by omega)

/-- A reference has at most one outcome. -/
theorem C66_outcome_unique (prog : Program) (W : Nat) (ref : Ref) (r r' : R (List Val)) (h : Outcome prog W ref r)
    (h' : Outcome prog W ref r') : r = r' := by
  obtain ⟨b, h⟩ := h
  obtain ⟨b', h'⟩ := h'
  rw [← h (b + b') (b + b') (by omega) (by omega), h' (b + b') (b + b') (by omega) (by omega)]

section
variable (prog : Program) (hp : parseAll sources = some prog) (W : Nat) (hW : 32 ≤ W)
include hp

include hW in
/-- **C66.** For all data (nil or not; of a length that an `int` can express) and both values of `atEOF`, executing
`ScanGraphemeClusters` as written in the source texts has the outcome that the model gives. -/
theorem C66_scan (data : Option (List UInt8)) (hd : (data.getD []).length < 2 ^ (W - 1)) (atEOF : Bool) :
    Outcome prog W (scanCall data atEOF) (match ScanGraphemeClusters (data.getD []) atEOF with
      | .ok r => .ok [.int tyInt r.advance, .bytes r.token, .nil]
      | .error p => .error (.panic p)) := by
  refine outcome_of hp ((data.getD []).length + 4) 4 fun L d hL => ?_
  rw [scanCall, run_scan L d hW data atEOF hd hL]
  cases ScanGraphemeClusters (data.getD []) atEOF <;> rfl

include hW in
/-- **C66.** So executing the source texts never panics, never runs forever and never meets anything that the language
specification forbids; the error is nil; the advance is within the data; the token is nil exactly if the advance is 0, and otherwise
the consumed prefix. -/
theorem C66_scan_total (data : Option (List UInt8)) (hd : (data.getD []).length < 2 ^ (W - 1)) (atEOF : Bool) :
    ∃ (advance : Nat) (token : Option (List UInt8)),
      Outcome prog W (scanCall data atEOF) (.ok [.int tyInt advance, .bytes token, .nil]) ∧
      advance ≤ (data.getD []).length ∧ (token = none ↔ advance = 0) ∧ (∀ t, token = some t → t = (data.getD []).take advance) := by
  obtain ⟨r, hr, _⟩ := C01_never_panics_never_fails (data.getD []) atEOF
  have h := C66_scan prog hp W hW data hd atEOF
  rw [hr] at h
  obtain ⟨h1, h2, h3⟩ := C02_token_is_consumed_prefix _ _ _ hr
  exact ⟨r.advance, r.token, h, h1, h2, h3⟩

include hW in
/-- The tokens that a caller gets by executing the source texts are those of the model. -/
theorem callerTokens_of (fuel : Nat) : ∀ (data : List UInt8) (toks : List (List UInt8)), data.length < 2 ^ (W - 1) →
    allTokensLoop fuel data = .ok toks → toks.flatten = data → CallerTokens prog W data toks := by
  induction fuel with
  | zero => intro data toks _ h; cases h
  | succ fuel ih =>
    intro data toks hd h hf
    rw [allTokensLoop] at h
    by_cases h0 : (data.length == 0) = true
    · rw [if_pos h0] at h
      cases h
      cases hf
      exact .done
    · rw [if_neg h0] at h
      have hne : data ≠ [] := fun e => h0 (by rw [e]; rfl)
      obtain ⟨r, hr, he⟩ := C01_never_panics_never_fails data true
      obtain ⟨r', tok, hr', ht, ha⟩ := C03_progress_at_eof data hne
      cases hr.symm.trans hr'
      obtain ⟨h1, _, h3⟩ := C02_token_is_consumed_prefix _ _ _ hr
      rw [hr] at h
      have h : (match r.token, r.err with
        | some tok, none => do
          let rest ← goSliceFrom data r.advance
          let toks ← allTokensLoop fuel rest
          .ok (tok :: toks)
        | _, _ => .ok []) = .ok toks := h
      simp only [ht, he, goSliceFrom, if_pos h1] at h
      replace h : (do
          let toks ← allTokensLoop fuel (data.drop r.advance)
          .ok (tok :: toks)) = Except.ok (ε := GoPanic) toks := h
      cases hl : allTokensLoop fuel (data.drop r.advance) with
      | error e => rw [hl] at h; cases h
      | ok ts =>
        rw [hl] at h
        cases h
        have hs := C66_scan prog hp W hW (some data) hd true
        simp only [Option.getD_some, hr, ht] at hs
        refine .next data tok r.advance ts hne h1 hs (ih _ _ ?_ hl ?_)
        · rw [List.length_drop]; omega
        · rw [List.flatten_cons, h3 tok ht] at hf
          have := List.take_append_drop r.advance data
          exact List.append_cancel_left (hf.trans this.symm)

include hW in
/-- **C66.** A caller who executes the source texts until a text is used up gets exactly its extended grapheme clusters (UAX #29). -/
theorem C66_clusters (cs : List Char) (hd : (utf8 cs).length < 2 ^ (W - 1)) :
    ∃ segs : List (List Char), IsSegmentation CharBoundary cs segs ∧ CallerTokens prog W (utf8 cs) (segs.map utf8) := by
  obtain ⟨segs, h1, h2⟩ := C05_conforms_to_UAX29 cs
  obtain ⟨toks, h3, h4, _⟩ := C04_tokens_partition_input (utf8 cs)
  cases h2.symm.trans h3
  exact ⟨segs, h1, callerTokens_of prog hp W hW _ _ _ hd h2 h4⟩

include hW in
/-- **C66.** The same for arbitrary bytes: the clusters of the pieces that the bytes consist of. -/
theorem C66_clusters_of_bytes (data : List UInt8) (hd : data.length < 2 ^ (W - 1)) :
    ∃ ps segs, Pieces data ps ∧ IsSegmentation PieceBoundary ps segs ∧ CallerTokens prog W data (segs.map piecesBytes) := by
  obtain ⟨ps, segs, h0, h1, h2⟩ := C06_conforms_on_arbitrary_bytes data
  obtain ⟨toks, h3, h4, _⟩ := C04_tokens_partition_input data
  cases h2.symm.trans h3
  exact ⟨ps, segs, h0, h1, callerTokens_of prog hp W hW _ _ _ hd h2 h4⟩

include hW in
/-- **C66.** There is such a split function, and any such function agrees with the model on all data that an `int` can count. -/
theorem C66_split (split : SplitFunc) : SplitsBy prog W split ↔
    ∀ data atEOF, data.length < 2 ^ (W - 1) → split data atEOF = ScanGraphemeClusters data atEOF := by
  constructor
  · intro h data atEOF hd
    obtain ⟨a, t, h1, h2⟩ := h (some data) atEOF hd
    have h3 := C66_scan prog hp W hW (some data) hd atEOF
    have h4 := C66_outcome_unique _ _ _ _ _ h1 h3
    obtain ⟨r, hr, he⟩ := C01_never_panics_never_fails data atEOF
    simp only [Option.getD_some] at h2 h4
    rw [hr] at h4 ⊢
    rw [h2]
    obtain ⟨a', t', e'⟩ := r
    simp only [Except.ok.injEq, List.cons.injEq, Val.int.injEq, Val.bytes.injEq, true_and, and_true] at h4
    simp only at he
    rw [he, h4.2, Int.ofNat_inj.mp h4.1]
  · intro h data atEOF hd
    obtain ⟨r, hr, he⟩ := C01_never_panics_never_fails (data.getD []) atEOF
    have h3 := C66_scan prog hp W hW data hd atEOF
    rw [hr] at h3
    refine ⟨r.advance, r.token, h3, ?_⟩
    rw [h _ _ hd, hr]
    obtain ⟨a, t, e⟩ := r
    simp only at he
    rw [he]

include hW in
/-- **C66.** A `bufio.Scanner` that splits by executing the source texts behaves in every step as one that splits by the model, for every reader
(also an incorrect one), every initial buffer and every limit that an `int` can express: so what C10 to C13 and the other properties of
streaming say holds of the source texts. -/
theorem C66_stream (split : SplitFunc) (hs : SplitsBy prog W split) {σ : Type} (read : Reader σ) (rd : σ) (b0 M : Nat) (hM : max b0 M < 2 ^ (W - 1))
    (n : Nat) :
    (newScanner rd b0).scanTimes split read M n = (newScanner rd b0).scanTimes ScanGraphemeClusters read M n ∧
    (newScanner rd b0).collect split read M n = (newScanner rd b0).collect ScanGraphemeClusters read M n := by
  have h := (C66_split prog hp W hW split).mp hs
  have hfg : ∀ data atEOF, data.length ≤ max b0 M → split data atEOF = ScanGraphemeClusters data atEOF :=
    fun data atEOF hd => h data atEOF (by omega)
  exact ⟨Scanner.scanTimes_congr read (by omega) hfg n (Scanner.fits_new rd b0 M),
    Scanner.collect_congr read (by omega) hfg n (Scanner.fits_new rd b0 M)⟩

include hW in
/-- **C66.** In particular, a text that a reader delivers in any pieces is split into its extended grapheme clusters (as in C11, if none is
longer than a Scanner with the default buffer allows). -/
theorem C66_stream_clusters (split : SplitFunc) (hs : SplitsBy prog W split) {σ : Type} (read : Reader σ) (rd : σ) (cs : List Char)
    (h : Delivers read .eof rd (utf8 cs) 0) :
    ∃ segs : List (List Char), IsSegmentation CharBoundary cs segs ∧
      ((∀ s ∈ segs, (utf8 s).length ≤ 65532) → ∀ fuel, (utf8 cs).length < fuel →
        (newScanner rd 0).collect split read maxScanTokenSize fuel = .ok (segs.map utf8, none)) := by
  obtain ⟨segs, h1, h2⟩ := C11_streaming_a_text read rd cs h
  refine ⟨segs, h1, fun hsh fuel hf => ?_⟩
  have hb : max 0 maxScanTokenSize < 2 ^ (W - 1) :=
    Nat.lt_of_lt_of_le (show max 0 maxScanTokenSize < 2 ^ 31 by decide) (Nat.pow_le_pow_right (by omega) (by omega))
  rw [(C66_stream prog hp W hW split hs read rd 0 maxScanTokenSize hb fuel).2]
  exact h2 hsh fuel hf

include hW in
/-- **C66.** A caller who keeps the slices of a Scanner that splits by executing the source texts gets the same slices of the same buffers as with
the model, for every reader; so does `allTokens`. In particular `allTokens` returns the clusters of a text of at most 2049 bytes. -/
theorem C66_all_tokens (split : SplitFunc) (hs : SplitsBy prog W split) :
    (∀ {σ : Type} (read : Reader σ) (rd : σ) (fuel : Nat), collectRefs split read maxScanTokenSize fuel (newScanner rd 0) =
      collectRefs ScanGraphemeClusters read maxScanTokenSize fuel (newScanner rd 0)) ∧
    (∀ data, allTokens data split = allTokens data ScanGraphemeClusters) ∧
    ∀ cs : List Char, (utf8 cs).length ≤ 2049 → ∃ segs : List (List Char), IsSegmentation CharBoundary cs segs ∧
      allTokens (utf8 cs) split = .ok (segs.map utf8, none) := by
  have h := (C66_split prog hp W hW split).mp hs
  have hb : max 0 maxScanTokenSize < 2 ^ (W - 1) :=
    Nat.lt_of_lt_of_le (show max 0 maxScanTokenSize < 2 ^ 31 by decide) (Nat.pow_le_pow_right (by omega) (by omega))
  have h1 : ∀ {σ : Type} (read : Reader σ) (rd : σ) (fuel : Nat), collectRefs split read maxScanTokenSize fuel (newScanner rd 0) =
      collectRefs ScanGraphemeClusters read maxScanTokenSize fuel (newScanner rd 0) := fun read rd fuel =>
    Scanner.collectRefs_congr read (by omega) (fun data atEOF hd => h data atEOF (by omega)) fuel (Scanner.fits_new rd 0 maxScanTokenSize)
  have h2 : ∀ data, allTokens data split = allTokens data ScanGraphemeClusters := fun data => by unfold allTokens; rw [h1]
  refine ⟨h1, h2, fun cs hl => ?_⟩
  obtain ⟨segs, h3, h4⟩ := C05_conforms_to_UAX29 cs
  exact ⟨segs, h3, (h2 _).trans (C38_all_tokens_partial _ hl _ h4)⟩

include hW in
/-- **C66.** Executing `LookupFirstChar` gives what the model gives. -/
theorem C66_lookup (p : Option (List UInt8)) :
    Outcome prog W (.func (name! "charprops") (name! "LookupFirstChar") [.bytes p]) (match LookupFirstChar (p.getD []) with
      | .ok r => .ok [.u8 typeCP r.1, .int tyInt r.2]
      | .error p => .error (.panic p)) := by
  refine outcome_of hp 4 3 fun L d hL => ?_
  rw [run_LookupFirstChar L d hW hL p]
  cases LookupFirstChar (p.getD []) <;> rfl

include hW in
/-- **C66.** So for every character, and whatever follows it, the source texts find the properties that the Unicode data files list,
and the length of its encoding. -/
theorem C66_lookup_character (c : Char) (rest : List UInt8) :
    ∃ props, Outcome prog W (.func (name! "charprops") (name! "LookupFirstChar") [.bytes (some (String.utf8EncodeChar c ++ rest))])
        (.ok [.u8 typeCP props, .int tyInt (String.utf8EncodeChar c).length]) ∧
      Describes props (ucd c.val.toNat) := by
  obtain ⟨props, h1, h2⟩ := C23_lookup_agrees_with_data_files c rest
  have h := C66_lookup prog hp W hW (some (String.utf8EncodeChar c ++ rest))
  simp only [Option.getD_some, h1] at h
  exact ⟨props, h, h2⟩

include hW in
/-- **C66.** Executing the state machine gives what the model gives, for every state (every `int`) and all properties. -/
theorem C66_machine (s : Int) (x y : UInt8) :
    Outcome prog W (.func (name! "machine") (name! "Begin") [.u8 typeCP x]) (match Begin x with
      | .ok s => .ok [.int typeState s]
      | .error p => .error (.panic p)) ∧
    Outcome prog W (.method (.int typeState s) (name! "Transition") [.u8 typeCP x, .u8 typeCP y]) (match Transition s x y with
      | .ok r => .ok [.bool r.1, .int typeState r.2]
      | .error p => .error (.panic p)) := by
  refine ⟨outcome_of hp 0 3 fun L d _ => ?_, outcome_of hp 0 3 fun L d _ => ?_⟩
  · rw [run_Begin W L d hW x]
    cases Begin x <;> rfl
  · rw [run_Transition W L d hW s x y]
    cases Transition s x y <;> rfl

/-- **C66.** Executing the functions for names and for printing gives what the model gives, for every string and every value. -/
theorem C66_names (s : GoString) (x y z : UInt8) :
    Outcome prog W (.func (name! "charprops") (name! "LookupGCBProperty") [.str s]) (.ok [.u8 typeGCB (LookupGCBProperty s)]) ∧
    Outcome prog W (.func (name! "charprops") (name! "LookupEmojiProperty") [.str s]) (.ok [.u8 typeGCB (LookupEmojiProperty s)]) ∧
    Outcome prog W (.func (name! "charprops") (name! "LookupInCBProperty") [.str s]) (.ok [.u8 typeInCB (LookupInCBProperty s)]) ∧
    Outcome prog W (.func (name! "charprops") (name! "MakeCharProperties") [.u8 typeGCB x, .u8 typeGCB y, .u8 typeInCB z])
      (.ok [.u8 typeCP (MakeCharProperties x y z)]) ∧
    Outcome prog W (.method (.u8 typeCP x) (name! "GCBProperty") []) (.ok [.u8 typeGCB (gcbProperty x)]) ∧
    Outcome prog W (.method (.u8 typeCP x) (name! "InCBProperty") []) (.ok [.u8 typeInCB (inCBProperty x)]) ∧
    Outcome prog W (.method (.u8 typeGCB x) (name! "IsAnyControl") []) (.ok [.bool (isAnyControl x)]) ∧
    Outcome prog W (.method (.u8 typeCP x) (name! "String") []) (.ok [.str (charPropertiesString x)]) ∧
    Outcome prog W (.method (.u8 typeGCB x) (name! "String") []) (.ok [.str (gcbString x)]) ∧
    Outcome prog W (.method (.u8 typeInCB x) (name! "String") []) (.ok [.str (inCBString x)]) :=
  ⟨outcome_of hp 0 2 fun L d _ => run_LookupGCBProperty W L d s, outcome_of hp 0 2 fun L d _ => run_LookupEmojiProperty W L d s,
    outcome_of hp 0 2 fun L d _ => run_LookupInCBProperty W L d s, outcome_of hp 0 1 fun L d _ => run_MakeCharProperties W L d x y z,
    outcome_of hp 0 1 fun L d _ => run_GCBProperty W L d x, outcome_of hp 0 1 fun L d _ => run_InCBProperty W L d x,
    outcome_of hp 0 2 fun L d _ => run_IsAnyControl W L d x, outcome_of hp 0 3 fun L d _ => run_charPropertiesString W L d x,
    outcome_of hp 0 2 fun L d _ => run_gcbString W L d x, outcome_of hp 0 2 fun L d _ => run_inCBString W L d x⟩
end

/-- The hypotheses of C66 hold for "e", COMBINING ACUTE ACCENT, "x", with `int`s of 64 and of 32 bits: the token is "é". -/
example : (∃ prog, parseAll sources = some prog) ∧ (∀ prog, parseAll sources = some prog → ∀ W, W = 32 ∨ W = 64 →
    Outcome prog W (scanCall (some [0x65, 0xCC, 0x81, 0x78]) false) (.ok [.int tyInt 3, .bytes (some [0x65, 0xCC, 0x81]), .nil])) := by
  refine ⟨⟨_, C66_parsed⟩, fun prog hp W hW => ?_⟩
  have h := C66_scan prog hp W (by omega) (some [0x65, 0xCC, 0x81, 0x78]) (by rcases hW with rfl | rfl <;> decide) false
  rw [show ScanGraphemeClusters ((some [0x65, 0xCC, 0x81, 0x78] : Option (List UInt8)).getD []) false = .ok ⟨3, some [0x65, 0xCC, 0x81], none⟩ by
    decide +kernel] at h
  exact h

/-- A call of `Transition` in a state that does not exist panics. -/
example (prog : Program) (hp : parseAll sources = some prog) : ∃ msg,
    Outcome prog 64 (.method (.int typeState 6) (name! "Transition") [.u8 typeCP 0, .u8 typeCP 0]) (.error (.panic (.explicit msg))) :=
  ⟨"invalid state", (C66_machine prog hp 64 (by decide) 6 0 0).2⟩

/-- The hypotheses of `C66_stream_clusters` are met: 32-bit integers, a text of five characters that is delivered one byte at a time. -/
example : ∃ split : SplitFunc, SplitsBy library 32 split ∧ ∃ segs, IsSegmentation CharBoundary ['e', '\u0301', '\u0915', '\r', '\n'] segs ∧
    ((∀ s ∈ segs, (utf8 s).length ≤ 65532) → (newScanner (utf8 ['e', '\u0301', '\u0915', '\r', '\n']) 0).collect split dripReader maxScanTokenSize 20 =
      .ok (segs.map utf8, none)) := by
  have hs := (C66_split library C66_parsed 32 (by omega) ScanGraphemeClusters).mpr fun _ _ _ => rfl
  obtain ⟨segs, h1, h2⟩ := C66_stream_clusters library C66_parsed 32 (by omega) _ hs dripReader _ _ (dripReader_delivers _)
  exact ⟨_, hs, segs, h1, fun h => h2 h 20 (by decide +kernel)⟩

/-- The hypotheses of `C66_all_tokens` are met: 64-bit integers and a text of three characters. -/
example : ∃ split : SplitFunc, SplitsBy library 64 split ∧ ∃ segs, IsSegmentation CharBoundary ['e', '\u0301', 'x'] segs ∧
    allTokens (utf8 ['e', '\u0301', 'x']) split = .ok (segs.map utf8, none) :=
  have hs := (C66_split library C66_parsed 64 (by omega) ScanGraphemeClusters).mpr fun _ _ _ => rfl
  ⟨_, hs, (C66_all_tokens library C66_parsed 64 (by omega) _ hs).2.2 _ (by decide +kernel)⟩

end Textseg.Props
