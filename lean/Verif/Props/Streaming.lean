import Verif.Proofs.Streaming
import Verif.Proofs.Endless
import Verif.Proofs.TokenLengths
import Verif.Proofs.Retain
import Verif.Proofs.Editing
import Verif.Proofs.Readers
import Verif.Proofs.Cuts
/-!
# Streaming with bufio.Scanner

`(newScanner rd b0).collect ScanGraphemeClusters read M fuel` is the loop `for s.Scan() { … s.Bytes() … }` followed by
`s.Err()`, on a Scanner over the reader `read` in state `rd`, with an initial buffer of `b0` bytes and the limit `M`
(`Scanner.Buffer`; the default is 0 and 65536). `fuel` bounds the number of calls of `Scan`; the theorems say that more
calls than there are bytes are never made. `max b0 M` is the largest length the buffer can get.
-/

namespace Textseg.Props
open Textseg Spec Scanner

/-- What `Scanner.Err` reports for the error that ended the stream: nothing for `io.EOF`. -/
def reported (E : IOErr) : Option IOErr := if E = .eof then none else some E

private theorem stream_cases {σ : Type} (read : Reader σ) (E : IOErr) (rd : σ) (D : List UInt8) (b0 M : Nat)
    (hC : 0 < max b0 M) (h : Delivers read E rd D 0) (toks : List (List UInt8)) (ht : tokens D = .ok toks) :
    ((∀ fuel, D.length < fuel → (newScanner rd b0).collect ScanGraphemeClusters read M fuel = .ok (toks, reported E)) ∧
      ∀ k, Overlong ScanGraphemeClusters (max b0 M) (toks.drop k).flatten →
        ¬ ErrorsSeparately read ∧ (toks.drop k).flatten.length = max b0 M) ∨
    (∃ k, (∀ fuel, D.length < fuel →
        (newScanner rd b0).collect ScanGraphemeClusters read M fuel = .ok (toks.take k, some .tooLong)) ∧
      Overlong ScanGraphemeClusters (max b0 M) (toks.drop k).flatten ∧
      (¬ ErrorsTogether read E ∨ max b0 M < (toks.drop k).flatten.length) ∧
      ∀ j, j < k → ¬ Overlong ScanGraphemeClusters (max b0 M) (toks.drop j).flatten) := by
  obtain ⟨t, F, h1, h2⟩ := stream_spec goodSplit_grapheme read E rd D b0 M hC h
  rcases streams_cases hC h1 (splitsTo_iff_tokens.mpr ht) with ⟨i1, i2, i3⟩ | ⟨k, i1, i2, i3, i4, i5⟩
  · refine Or.inl ⟨fun fuel hf => ?_, i3⟩
    rw [h2 fuel hf, i1, i2]; rfl
  · refine Or.inr ⟨k, fun fuel hf => ?_, i3, i4, i5⟩
    rw [h2 fuel hf, i1, i2]; rfl

/-- C11: if at no token the buffer is too small to decide it, the Scanner emits exactly the tokens of the whole input,
however the reader delivers it, and then reports how the reader ended. -/
theorem C11_emits_the_tokens {σ : Type} (read : Reader σ) (E : IOErr) (rd : σ) (D : List UInt8) (b0 M : Nat)
    (hC : 0 < max b0 M) (h : Delivers read E rd D 0) (toks : List (List UInt8)) (ht : tokens D = .ok toks)
    (hshort : ∀ k, ¬ Overlong ScanGraphemeClusters (max b0 M) (toks.drop k).flatten) (fuel : Nat) (hf : D.length < fuel) :
    (newScanner rd b0).collect ScanGraphemeClusters read M fuel = .ok (toks, reported E) := by
  rcases stream_cases read E rd D b0 M hC h toks ht with ⟨h1, _⟩ | ⟨k, _, h2, _⟩
  · exact h1 fuel hf
  · exact absurd h2 (hshort k)

/-- C11: the buffer is not too small if every token is at least four bytes shorter than it. -/
theorem C11_short_clusters {σ : Type} (read : Reader σ) (E : IOErr) (rd : σ) (D : List UInt8) (b0 M : Nat)
    (hC : 0 < max b0 M) (h : Delivers read E rd D 0) (toks : List (List UInt8)) (ht : tokens D = .ok toks)
    (hshort : ∀ t ∈ toks, t.length + 4 ≤ max b0 M) (fuel : Nat) (hf : D.length < fuel) :
    (newScanner rd b0).collect ScanGraphemeClusters read M fuel = .ok (toks, reported E) := by
  refine C11_emits_the_tokens read E rd D b0 M hC h toks ht ?_ fuel hf
  intro k ho
  obtain ⟨r, t, hr, hm, ha⟩ := first_token ht k (by
    intro h0; rw [h0] at ho; have := ho.1; simp only [List.length_nil] at this; omega)
  have h1 := overlong_token ho (by
    intro h0; rw [h0] at ho; have := ho.1; simp only [List.length_nil] at this; omega) hr
  have := hshort t hm
  omega

/-- C11 for texts: streaming a text whose grapheme clusters have at most 65532 bytes through a Scanner with the default
buffer yields exactly the grapheme clusters of UAX #29, and no error. -/
theorem C11_streaming_a_text {σ : Type} (read : Reader σ) (rd : σ) (cs : List Char)
    (h : Delivers read .eof rd (utf8 cs) 0) :
    ∃ segs : List (List Char), IsSegmentation CharBoundary cs segs ∧
      ((∀ s ∈ segs, (utf8 s).length ≤ 65532) → ∀ fuel, (utf8 cs).length < fuel →
        (newScanner rd 0).collect ScanGraphemeClusters read maxScanTokenSize fuel = .ok (segs.map utf8, none)) := by
  obtain ⟨segs, h1, h2⟩ := tokens_text cs
  refine ⟨segs, h1, fun hs fuel hf => ?_⟩
  refine C11_short_clusters read .eof rd (utf8 cs) 0 maxScanTokenSize (by decide) h _ h2 ?_ fuel hf
  intro t ht
  obtain ⟨s, hm, rfl⟩ := List.mem_map.mp ht
  have := hs s hm
  show (utf8 s).length + 4 ≤ max 0 (64 * 1024)
  omega

/-- C11: at the first token that cannot be decided from a full buffer, the Scanner stops with ErrTooLong, having emitted
exactly the tokens before; provided that there are further bytes, or that the reader reports its end separately. -/
theorem C11_stops_at_overlong_token {σ : Type} (read : Reader σ) (E : IOErr) (rd : σ) (D : List UInt8) (b0 M : Nat)
    (hC : 0 < max b0 M) (h : Delivers read E rd D 0) (toks : List (List UInt8)) (ht : tokens D = .ok toks) (k : Nat)
    (hlong : Overlong ScanGraphemeClusters (max b0 M) (toks.drop k).flatten)
    (hfirst : ∀ j, j < k → ¬ Overlong ScanGraphemeClusters (max b0 M) (toks.drop j).flatten)
    (hedge : ErrorsSeparately read ∨ max b0 M < (toks.drop k).flatten.length) (fuel : Nat) (hf : D.length < fuel) :
    (newScanner rd b0).collect ScanGraphemeClusters read M fuel = .ok (toks.take k, some .tooLong) := by
  rcases stream_cases read E rd D b0 M hC h toks ht with ⟨_, h2⟩ | ⟨k', h1, h2, _, h4⟩
  · obtain ⟨g1, g2⟩ := h2 k hlong
    rcases hedge with he | he
    · exact absurd he g1
    · omega
  · have : k' = k := by
      rcases Nat.lt_trichotomy k' k with hlt | heq | hgt
      · exact absurd h2 (hfirst k' hlt)
      · exact heq
      · exact absurd hlong (h4 k hgt)
    subst this
    exact h1 fuel hf

/-- C11: a token of more bytes than the buffer can hold always makes the Scanner stop with ErrTooLong, at that token or
before. If the tokens before are at least four bytes shorter than the buffer, it stops at that token. -/
theorem C11_long_cluster {σ : Type} (read : Reader σ) (E : IOErr) (rd : σ) (D : List UInt8) (b0 M : Nat)
    (hC : 2 ≤ max b0 M) (h : Delivers read E rd D 0) (pre post : List (List UInt8)) (t : List UInt8)
    (ht : tokens D = .ok (pre ++ t :: post)) (hlong : max b0 M < t.length) (fuel : Nat) (hf : D.length < fuel) :
    ∃ k, k ≤ pre.length ∧
      (newScanner rd b0).collect ScanGraphemeClusters read M fuel = .ok (pre.take k, some .tooLong) ∧
      ((∀ p ∈ pre, p.length + 4 ≤ max b0 M) → k = pre.length) := by
  have hdrop : (pre ++ t :: post).drop pre.length = t :: post := List.drop_left
  have hne : ((pre ++ t :: post).drop pre.length).flatten ≠ [] := by
    intro h0
    have := congrArg List.length h0
    rw [hdrop, List.flatten_cons, List.length_append, List.length_nil] at this
    omega
  have hlen : max b0 M < ((pre ++ t :: post).drop pre.length).flatten.length := by
    rw [hdrop, List.flatten_cons, List.length_append]; omega
  have hover : Overlong ScanGraphemeClusters (max b0 M) ((pre ++ t :: post).drop pre.length).flatten := by
    obtain ⟨r, t', hr, hm, ha, hx⟩ := first_token' ht pre.length hne
    rw [hdrop] at hx
    cases hx
    exact overlong_of_token hr hC (by omega)
  rcases stream_cases read E rd D b0 M (by omega) h _ ht with ⟨_, h2⟩ | ⟨k, h1, h2, _, h4⟩
  · have := (h2 _ hover).2
    omega
  · have hk : k ≤ pre.length := by
      refine Decidable.byContradiction fun hk => ?_
      exact h4 pre.length (by omega) hover
    refine ⟨k, hk, ?_, ?_⟩
    · rw [h1 fuel hf, List.take_append_of_le_length hk]
    · intro hs
      refine Decidable.byContradiction fun hne' => ?_
      have hk' : k < pre.length := by omega
      have hne2 : ((pre ++ t :: post).drop k).flatten ≠ [] := by
        intro h0; rw [h0] at h2; have := h2.1; simp only [List.length_nil] at this; omega
      obtain ⟨r, t', hr, hm, ha, hx⟩ := first_token' ht k hne2
      have h1 := overlong_token h2 hne2 hr
      have hmem : t' ∈ pre := by
        rw [List.drop_append_of_le_length hk] at hx
        rw [List.head?_append, List.head?_drop] at hx
        rw [List.getElem?_eq_getElem hk'] at hx
        simp only [Option.some_or] at hx
        cases hx
        exact List.getElem_mem _
      have := hs t' hmem
      omega

/-- C12: if the reader fails, the Scanner emits the tokens of the bytes delivered before (as if they were the whole
input) and reports the error. This includes a reader that returns an impossible count, or 101 empty reads in a row. -/
theorem C12_reader_failure {σ : Type} (read : Reader σ) (E : IOErr) (hE : E ≠ .eof) (rd : σ) (D : List UInt8) (b0 M : Nat)
    (hC : 0 < max b0 M) (h : Delivers read E rd D 0) (toks : List (List UInt8)) (ht : tokens D = .ok toks)
    (hshort : ∀ k, ¬ Overlong ScanGraphemeClusters (max b0 M) (toks.drop k).flatten) (fuel : Nat) (hf : D.length < fuel) :
    (newScanner rd b0).collect ScanGraphemeClusters read M fuel = .ok (toks, some E) := by
  rw [C11_emits_the_tokens read E rd D b0 M hC h toks ht hshort fuel hf, reported, if_neg hE]

/-- C10: two readers that deliver the same bytes and end with the same error give the same tokens and the same error,
in whatever pieces they deliver them, if both report their end in a separate call. -/
theorem C10_independent_of_pieces {σ τ : Type} (read : Reader σ) (read' : Reader τ) (E : IOErr) (rd : σ) (rd' : τ)
    (D : List UInt8) (b0 M : Nat) (hC : 0 < max b0 M) (h : Delivers read E rd D 0) (h' : Delivers read' E rd' D 0)
    (hs : ErrorsSeparately read) (hs' : ErrorsSeparately read') (fuel fuel' : Nat) (hf : D.length < fuel)
    (hf' : D.length < fuel') :
    (newScanner rd b0).collect ScanGraphemeClusters read M fuel =
    (newScanner rd' b0).collect ScanGraphemeClusters read' M fuel' := by
  obtain ⟨toks, ht⟩ := tokens_ok D
  rcases stream_cases read' E rd' D b0 M hC h' toks ht with ⟨h1, h2⟩ | ⟨k, h1, h2, h3, h4⟩
  · rw [h1 fuel' hf']
    exact C11_emits_the_tokens read E rd D b0 M hC h toks ht (fun k ho => (h2 k ho).1 hs') fuel hf
  · rw [h1 fuel' hf']
    exact C11_stops_at_overlong_token read E rd D b0 M hC h toks ht k h2 h4 (Or.inl hs) fuel hf

/-- C10: the same if both return their last bytes together with the error. -/
theorem C10_independent_of_pieces_together {σ τ : Type} (read : Reader σ) (read' : Reader τ) (E : IOErr) (rd : σ) (rd' : τ)
    (D : List UInt8) (b0 M : Nat) (hC : 0 < max b0 M) (h : Delivers read E rd D 0) (h' : Delivers read' E rd' D 0)
    (hs : ErrorsTogether read E) (hs' : ErrorsTogether read' E) (fuel fuel' : Nat) (hf : D.length < fuel)
    (hf' : D.length < fuel') :
    (newScanner rd b0).collect ScanGraphemeClusters read M fuel =
    (newScanner rd' b0).collect ScanGraphemeClusters read' M fuel' := by
  obtain ⟨toks, ht⟩ := tokens_ok D
  rcases stream_cases read' E rd' D b0 M hC h' toks ht with ⟨h1, h2⟩ | ⟨k, h1, h2, h3, h4⟩
  · rw [h1 fuel' hf']
    rcases stream_cases read E rd D b0 M hC h toks ht with ⟨g1, _⟩ | ⟨j, g1, g2, g3, g4⟩
    · exact g1 fuel hf
    · have := (h2 j g2).2
      rcases g3 with g3 | g3
      · exact absurd hs g3
      · omega
  · rw [h1 fuel' hf']
    refine C11_stops_at_overlong_token read E rd D b0 M hC h toks ht k h2 h4 (Or.inr ?_) fuel hf
    rcases h3 with h3 | h3
    · exact absurd hs' h3
    · exact h3

/-- C10: the same for any two readers, unless the input ends with exactly as many undecided bytes as the buffer holds. -/
theorem C10_independent_of_reader {σ τ : Type} (read : Reader σ) (read' : Reader τ) (E : IOErr) (rd : σ) (rd' : τ)
    (D : List UInt8) (b0 M : Nat) (hC : 0 < max b0 M) (h : Delivers read E rd D 0) (h' : Delivers read' E rd' D 0)
    (toks : List (List UInt8)) (ht : tokens D = .ok toks)
    (hedge : ∀ k, (toks.drop k).flatten.length = max b0 M →
      ¬ Overlong ScanGraphemeClusters (max b0 M) (toks.drop k).flatten)
    (fuel fuel' : Nat) (hf : D.length < fuel) (hf' : D.length < fuel') :
    (newScanner rd b0).collect ScanGraphemeClusters read M fuel =
    (newScanner rd' b0).collect ScanGraphemeClusters read' M fuel' := by
  rcases stream_cases read' E rd' D b0 M hC h' toks ht with ⟨h1, h2⟩ | ⟨k, h1, h2, h3, h4⟩
  · rw [h1 fuel' hf']
    exact C11_emits_the_tokens read E rd D b0 M hC h toks ht (fun k ho => hedge k (h2 k ho).2 ho) fuel hf
  · rw [h1 fuel' hf']
    refine C11_stops_at_overlong_token read E rd D b0 M hC h toks ht k h2 h4 (Or.inr ?_) fuel hf
    have := h2.1
    rcases Nat.lt_or_eq_of_le this with h5 | h5
    · exact h5
    · exact absurd h2 (hedge k h5.symm)

/-- C10, the exception: if the input is exactly as long as the buffer and undecided, a reader that reports its end
separately leads to ErrTooLong and no token, but one that reports it together with the last bytes leads to all the tokens
and no error. -/
theorem C10_exception {σ τ : Type} (read : Reader σ) (read' : Reader τ) (rd : σ) (rd' : τ)
    (D : List UInt8) (b0 M : Nat) (hC : 0 < max b0 M) (h : Delivers read .eof rd D 0) (h' : Delivers read' .eof rd' D 0)
    (hs : ErrorsSeparately read) (hs' : ErrorsTogether read' .eof) (hlen : D.length = max b0 M)
    (hu : ScanGraphemeClusters D false = .ok ⟨0, none, none⟩) :
    (newScanner rd b0).collect ScanGraphemeClusters read M (D.length + 1) = .ok ([], some .tooLong) ∧
    ∃ toks, tokens D = .ok toks ∧ toks ≠ [] ∧
      (newScanner rd' b0).collect ScanGraphemeClusters read' M (D.length + 1) = .ok (toks, none) := by
  obtain ⟨toks, ht⟩ := tokens_ok D
  have hfl : toks.flatten = D := splitsTo_drop (splitsTo_iff_tokens.mpr ht)
  have ho : Overlong ScanGraphemeClusters (max b0 M) (toks.drop 0).flatten := by
    rw [List.drop_zero, hfl]
    exact ⟨by omega, _, by rw [← hlen, List.take_length]; exact hu, rfl⟩
  refine ⟨?_, toks, ht, ?_, ?_⟩
  · exact C11_stops_at_overlong_token read .eof rd D b0 M hC h toks ht 0 ho (by omega) (Or.inl hs) _ (by omega)
  · intro h0; rw [h0] at hfl; rw [← hfl] at hlen; simp at hlen; omega
  · rcases stream_cases read' .eof rd' D b0 M hC h' toks ht with ⟨h1, _⟩ | ⟨k, h1, h2, h3, h4⟩
    · exact h1 _ (by omega)
    · exfalso
      rcases h3 with h3 | h3
      · exact h3 hs'
      · have : (toks.drop k).flatten.length ≤ toks.flatten.length := by
          have := congrArg List.length (congrArg List.flatten (List.take_append_drop k toks))
          rw [List.flatten_append, List.length_append] at this
          omega
        rw [hfl] at this
        omega

/-! ## The hypotheses are met -/

/-- The reader of the test suite, any sequence of pieces with at most 100 empty ones in a row, bytes.Reader, and a reader
that reports its end together with the last bytes deliver what they should. -/
theorem C10_readers (D : List UInt8) (E : IOErr) (pieces : List (List UInt8)) (h : FewEmpty 0 pieces) :
    (Delivers dripReader .eof D D 0 ∧ ErrorsSeparately dripReader) ∧
    (Delivers bytesReader .eof D D 0 ∧ ErrorsSeparately bytesReader) ∧
    (Delivers (pieceReader E) E pieces pieces.flatten 0 ∧ ErrorsSeparately (pieceReader E)) ∧
    (Delivers (eagerReader E) E D D 0 ∧ ErrorsTogether (eagerReader E) E) :=
  ⟨⟨dripReader_delivers D, dripReader_separately⟩, ⟨bytesReader_delivers D, bytesReader_separately⟩,
    ⟨pieceReader_delivers E pieces 0 h, pieceReader_separately E⟩, ⟨eagerReader_delivers E D, eagerReader_together E⟩⟩

/-- So: the reader of the test suite (one byte at a time) and bytes.Reader give the same result for every input. -/
example (D : List UInt8) :
    (newScanner D 0).collect ScanGraphemeClusters dripReader maxScanTokenSize (D.length + 1) =
    (newScanner D 0).collect ScanGraphemeClusters bytesReader maxScanTokenSize (D.length + 1) :=
  C10_independent_of_pieces _ _ .eof _ _ D 0 _ (by decide) (dripReader_delivers D) (bytesReader_delivers D)
    dripReader_separately bytesReader_separately _ _ (by omega) (by omega)

/-- "e", ACUTE ACCENT, "x" in pieces that cut the accent, with an empty read, from a reader that fails: both tokens and the
error. (Small buffers, so that it is evaluated quickly.) -/
example : (newScanner [[0x65, 0xCC], [], [0x81, 0x78]] 2).collect ScanGraphemeClusters (pieceReader (.other "lost")) 8 5 =
    .ok ([[0x65, 0xCC, 0x81], [0x78]], some (.other "lost")) := by decide +kernel

/-- The exception occurs: "e", ACUTE ACCENT and a buffer of three bytes. -/
example : ScanGraphemeClusters [0x65, 0xCC, 0x81] false = .ok ⟨0, none, none⟩ ∧
    (newScanner [0x65, 0xCC, 0x81] 0).collect ScanGraphemeClusters dripReader 3 4 = .ok ([], some .tooLong) ∧
    (newScanner [0x65, 0xCC, 0x81] 0).collect ScanGraphemeClusters (eagerReader .eof) 3 4 =
      .ok ([[0x65, 0xCC, 0x81]], none) := by decide +kernel

/-- A token that is too long for a buffer of four bytes, after one that is not. -/
example : tokens [0x61, 0x65, 0xCC, 0x81, 0xCC, 0x81, 0x78] = .ok [[0x61], [0x65, 0xCC, 0x81, 0xCC, 0x81], [0x78]] ∧
    (newScanner [0x61, 0x65, 0xCC, 0x81, 0xCC, 0x81, 0x78] 0).collect ScanGraphemeClusters dripReader 4 8 =
    .ok ([[0x61]], some .tooLong) := by decide +kernel

/-- C40: whatever the reader does (it may never end, return impossible counts, return nothing for ever, store less than it
says, return errors at random and data after them), any number of calls of `Scan` return, without a panic. -/
theorem C40_scan_always_returns {σ : Type} (read : Reader σ) (rd : σ) (b0 M : Nat) (hC : 0 < max b0 M) (n : Nat) :
    ∃ s, scanTimes ScanGraphemeClusters read M n (newScanner rd b0) = .ok s := by
  obtain ⟨s, h, _⟩ := scanTimes_sane goodSplit_grapheme (read := read) n (newScanner_sane rd b0 M hC)
  exact ⟨s, h⟩

/-- A reader that returns 7 for every read, and one that returns the letter "a" for ever. -/
example : (∃ s, scanTimes ScanGraphemeClusters (fun (_ : Unit) _ => ⟨[], 7, none, ()⟩) 4 5 (newScanner () 0) = .ok s) ∧
    (scanTimes ScanGraphemeClusters (fun (_ : Unit) _ => ⟨[0x61], 1, none, ()⟩) 4 9 (newScanner () 0)).map (·.token) =
      .ok (some [0x61]) := by
  refine ⟨C40_scan_always_returns _ _ _ _ (by decide) 5, by decide +kernel⟩

/-- The tokens emitted, the bytes delivered, the state: general form of C41. -/
private theorem emitted_upTo {σ : Type} (read : Reader σ) (hh : Honest read) (M C : Nat) (n : Nat) :
    ∀ (s s' : Scanner (σ × List UInt8)) (pre toks : List (List UInt8)),
    Emitted ScanGraphemeClusters M C s pre pre.flatten →
    collectUpTo ScanGraphemeClusters (logged read) M n s = .ok (toks, s') → toks.length = n →
    Emitted ScanGraphemeClusters M C s' (pre ++ toks) (pre ++ toks).flatten := by
  induction n with
  | zero =>
    intro s s' pre toks h hc hl
    cases hc
    rw [List.append_nil]; exact h
  | succ n ih =>
    intro s s' pre toks h hc hl
    unfold collectUpTo at hc
    simp only [bind, Except.bind] at hc
    cases hx : s.Scan ScanGraphemeClusters (logged read) M with
    | error e => rw [hx] at hc; cases hc
    | ok y =>
      obtain ⟨b, s1⟩ := y
      rw [hx] at hc
      cases b with
      | false => cases hc; cases hl
      | true =>
        obtain ⟨w, b, r, tok, h1, h2, h3, h4⟩ := Scan_emitted goodSplit_grapheme hh h hx
        have htok := (C02_token_is_consumed_prefix w b r h2).2.2 tok h3
        rw [← htok, ← List.flatten_concat] at h4
        cases hy : collectUpTo ScanGraphemeClusters (logged read) M n s1 with
        | error e => simp only [hy] at hc; cases hc
        | ok z =>
          obtain ⟨toks', s2⟩ := z
          simp only [hy] at hc
          cases hc
          have := ih s1 s' (pre ++ [tok]) toks' h4 hy (by simpa using hl)
          rw [Bytes, h1, Option.getD]
          rw [List.append_assoc] at this
          exact this

/-- C41: at every moment, for every reader that counts correctly (also one that never ends, or that fails and goes on):
after `n` tokens, what has been delivered is the tokens so far followed by some bytes `w`; and as long as the reader has
not reported an end, the tokens so far are the first tokens of the stream, whatever comes next. -/
theorem C41_emitted_so_far {σ : Type} (read : Reader σ) (hh : Honest read) (rd : σ) (b0 M : Nat) (hC : 0 < max b0 M)
    (n : Nat) (toks : List (List UInt8)) (s : Scanner (σ × List UInt8))
    (h : collectUpTo ScanGraphemeClusters (logged read) M n (newScanner (rd, []) b0) = .ok (toks, s)) (hn : toks.length = n) :
    ∃ w, s.rd.2 = toks.flatten ++ w ∧
      ∀ more, (s.err = none ∨ more = []) → ∀ rest, tokens (w ++ more) = .ok rest → tokens (s.rd.2 ++ more) = .ok (toks ++ rest) := by
  have := emitted_upTo read hh M _ n _ s [] toks (newScanner_emitted _ rd b0 M hC) h hn
  rw [List.nil_append] at this
  refine ⟨s.win, this.log, fun more hm rest hr => ?_⟩
  exact splitsTo_iff_tokens.mp (this.fin more hm rest (splitsTo_iff_tokens.mpr hr))

/-- A reader that delivers "e", ACUTE ACCENT for ever, or the beginning of it if there is less room (so that the third
token is an "e" followed by half of the accent). -/
example : (collectUpTo ScanGraphemeClusters (logged fun (_ : Unit) room => ⟨[0x65, 0xCC, 0x81].take room,
    ([0x65, 0xCC, 0x81].take room : List UInt8).length, none, ()⟩) 8 3 (newScanner ((), []) 8)).map (fun x => (x.1, x.2.err)) =
    .ok ([[0x65, 0xCC, 0x81], [0x65, 0xCC, 0x81], [0x65]], none) := by decide +kernel

/-! ## allTokens -/

/-- C51: whoever keeps the slices that `Bytes` returns, instead of copies, still finds the tokens in them after the last
call of `Scan`, if the input has at most 2049 bytes, whatever the reader does (except for returning an impossible count). -/
theorem C51_kept_slices {σ : Type} (read : Reader σ) (E : IOErr) (rd : σ) (D : List UInt8) (hE : E ≠ .badReadCount)
    (hn : D.length ≤ 2049) (h : Delivers read E rd D 0) (toks : List (List UInt8)) (ht : tokens D = .ok toks) (fuel : Nat)
    (hf : D.length < fuel) :
    ∃ refs s', collectRefs ScanGraphemeClusters read maxScanTokenSize fuel (newScanner rd 0) = .ok (refs, s') ∧
      refs.mapM (SliceRef.read s'.heap) = .ok toks ∧ s'.Err = reported E := by
  have hc := C11_short_clusters read E rd D 0 maxScanTokenSize (by decide) h toks ht (fun t hm => by
    have h1 : t.length ≤ D.length := by
      rw [← tokens_flatten ht]
      exact (List.sublist_flatten_of_mem hm).length_le
    show t.length + 4 ≤ max 0 (64 * 1024)
    omega) fuel hf
  obtain ⟨refs, s', h1, h2, h3⟩ := retained goodSplit_grapheme (fun d b r tok hr ht =>
    (C02_token_is_consumed_prefix d b r hr).2.2 tok ht) hE hn h hc
  exact ⟨refs, s', h1, h3, h2⟩

/-- C38 (part): for inputs of at most 2049 bytes allTokens returns exactly the tokens. Missing: longer inputs, for which the
claim is false of the code (next theorem). -/
theorem C38_all_tokens_partial (data : List UInt8) (hn : data.length ≤ 2049) (toks : List (List UInt8))
    (ht : tokens data = .ok toks) : allTokens data ScanGraphemeClusters = .ok (toks, none) := by
  obtain ⟨refs, s', h1, h2, h3⟩ := C51_kept_slices bytesReader .eof data data (by simp) hn (bytesReader_delivers data) toks ht
    (data.length + 1) (by omega)
  unfold allTokens
  simp only [bind, Except.bind, h1, h2, h3]
  rfl

/-- The bytes of "é" and "x", one at a time. -/
example : ∃ refs s', collectRefs ScanGraphemeClusters dripReader maxScanTokenSize 10 (newScanner [0x65, 0xCC, 0x81, 0x78] 0) =
    .ok (refs, s') ∧ refs.mapM (SliceRef.read s'.heap) = .ok [[0x65, 0xCC, 0x81], [0x78]] ∧ s'.Err = none :=
  C51_kept_slices dripReader .eof _ _ (by simp) (by decide) (dripReader_delivers _) _ (by decide +kernel) 10 (by decide)

/-- An input of 2050 bytes with three tokens: "a", "é" with 1023 accents, "b". -/
def longInput : List UInt8 := 0x61 :: 0xC3 :: 0xA9 :: (List.replicate 1023 [0xCC, 0x81]).flatten ++ [0x62]

/-- C38 is false for longer inputs: allTokens keeps slices of the buffer of the Scanner, which the Scanner goes on to use;
here the first token reads "b" in the end instead of "a". The bound 2049 of the previous theorem is the best possible. -/
theorem C38_false_for_longer_inputs : longInput.length = 2050 ∧
    (tokens longInput).map (fun t => (t.length, t.head?)) = .ok (3, some [0x61]) ∧
    (allTokens longInput ScanGraphemeClusters).map (fun t => (t.1.length, t.1.head?)) = .ok (3, some [0x62]) := by
  decide +kernel

/-- C38 (part) for every input, of any length: allTokens does not fail, and its result differs from what the Scanner has
emitted at most in the contents of the tokens: the number of tokens, their order, their lengths and the error are right. -/
theorem C38_lengths_partial (data : List UInt8) : ∃ toks err toks',
    (newScanner data 0).collect ScanGraphemeClusters bytesReader maxScanTokenSize (data.length + 1) = .ok (toks, err) ∧
    allTokens data ScanGraphemeClusters = .ok (toks', err) ∧ toks'.map List.length = toks.map List.length := by
  obtain ⟨t0, ht0⟩ := tokens_ok data
  obtain ⟨toks, err, h⟩ : ∃ toks err, (newScanner data 0).collect ScanGraphemeClusters bytesReader maxScanTokenSize
      (data.length + 1) = .ok (toks, err) := by
    rcases stream_cases bytesReader .eof data data 0 maxScanTokenSize (by decide) (bytesReader_delivers data) t0 ht0 with
      ⟨h1, _⟩ | ⟨k, h1, _⟩
    · exact ⟨_, _, h1 _ (Nat.lt_succ_self _)⟩
    · exact ⟨_, _, h1 _ (Nat.lt_succ_self _)⟩
  obtain ⟨toks', h1, h2⟩ := allTokens_lengths data (fun d b r tok hr ht => by
    have := (C02_token_is_consumed_prefix d b r hr).2.2 tok ht
    rw [this, List.length_take]
    exact Nat.min_le_left _ _) h
  exact ⟨toks, err, toks', h, h1, h2⟩

/-- C38 (part): if no cluster is longer than 65532 bytes, then allTokens returns as many tokens as there are clusters, with
the lengths of the clusters, and no error. In particular the sum of the lengths is the length of the input. -/
theorem C38_boundaries_partial (data : List UInt8) (toks : List (List UInt8)) (ht : tokens data = .ok toks)
    (hshort : ∀ t ∈ toks, t.length ≤ 65532) :
    ∃ toks', allTokens data ScanGraphemeClusters = .ok (toks', none) ∧ toks'.map List.length = toks.map List.length := by
  obtain ⟨toks1, err, toks', h1, h2, h3⟩ := C38_lengths_partial data
  rw [C11_short_clusters bytesReader .eof data data 0 maxScanTokenSize (by decide) (bytesReader_delivers data) toks ht
    (fun t hm => by
      have := hshort t hm
      show t.length + 4 ≤ max 0 (64 * 1024)
      omega) _ (Nat.lt_succ_self _)] at h1
  cases h1
  exact ⟨toks', h2, h3⟩

/-- The input above, for which the contents are not right: the lengths are. -/
example : ∃ toks', allTokens longInput ScanGraphemeClusters = .ok (toks', none) ∧ toks'.map List.length = [1, 2048, 1] := by
  obtain ⟨toks, ht⟩ := tokens_ok longInput
  have hl : toks.map List.length = [1, 2048, 1] := by
    have : (tokens longInput).map (List.map List.length) = .ok [1, 2048, 1] := by decide +kernel
    rw [ht] at this
    simpa only [Except.map, Except.ok.injEq] using this
  obtain ⟨toks', h1, h2⟩ := C38_boundaries_partial longInput toks ht (fun t hm => by
    have hm' := List.mem_map_of_mem (f := List.length) hm
    rw [hl] at hm'
    simp only [List.mem_cons, List.not_mem_nil, or_false] at hm'
    omega)
  exact ⟨toks', h1, h2.trans hl⟩

/-- A short input. -/
example : allTokens [0x65, 0xCC, 0x81, 0x78] ScanGraphemeClusters = .ok ([[0x65, 0xCC, 0x81], [0x78]], none) :=
  C38_all_tokens_partial _ (by decide) _ (by decide +kernel)

end Textseg.Props
