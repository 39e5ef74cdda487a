import Verif.Proofs.GenFiles
import Verif.Proofs.Readers
/-!
# Every list of entries is the meaning of some data file
-/

namespace Textseg.Gen
open Textseg Spec Scanner

def hexText (n : Nat) : List UInt8 :=
  if h : n < 16 then [hexDigitByte ⟨n, h⟩ true] else hexText (n / 16) ++ [hexDigitByte ⟨n % 16, by omega⟩ true]

theorem hexText_isHex (n : Nat) : IsHex (hexText n) n := by
  induction n using Nat.strongRecOn with
  | ind n ih =>
    rw [hexText]
    split
    · next h => exact .digit ⟨n, h⟩ true
    · next h =>
      have := IsHex.snoc _ _ ⟨n % 16, by omega⟩ true (ih (n / 16) (by omega))
      simp only at this
      rwa [show n / 16 * 16 + n % 16 = n by omega] at this

theorem hexText_length (k n : Nat) (h : n < 16 ^ (k + 1)) : (hexText n).length ≤ k + 1 := by
  induction k generalizing n with
  | zero => rw [hexText, dif_pos (by omega)]; simp
  | succ k ih =>
    rw [hexText]
    split
    · simp
    · have := ih (n / 16) (by rw [Nat.div_lt_iff_lt_mul (by omega)]; rw [Nat.pow_succ] at h; exact h)
      simp
      omega

/-- A printable ASCII character other than space, `#` and `;`. -/
def Plain (b : UInt8) : Prop := 0x21 ≤ b ∧ b ≤ 0x7E ∧ b ≠ hash ∧ b ≠ semicolon

instance (b : UInt8) : Decidable (Plain b) := by unfold Plain; infer_instance

theorem plain_hexDigit : ∀ d : Fin 16, Plain (hexDigitByte d true) := by decide +kernel

theorem hexText_plain (n : Nat) : ∀ b ∈ hexText n, Plain b := by
  induction n using Nat.strongRecOn with
  | ind n ih =>
    rw [hexText]
    split
    · intro b hb
      rw [List.mem_singleton.mp hb]
      exact plain_hexDigit _
    · intro b hb
      rcases List.mem_append.mp hb with hb | hb
      · exact ih _ (by omega) b hb
      · rw [List.mem_singleton.mp hb]
        exact plain_hexDigit _

theorem ws_notPlain : ∀ c ∈ whiteSpace, ∃ b ∈ utf8 [c], ¬ Plain b := by decide +kernel

theorem padded_plain {t : List UInt8} (h : ∀ b ∈ t, Plain b) : Padded t t := by
  refine ⟨fun c hc r => ?_, [], [], ⟨[], by simp, rfl⟩, ⟨[], by simp, rfl⟩, by simp⟩
  obtain ⟨b, hb, hn⟩ := ws_notPlain c hc
  constructor
  · intro e; exact hn (h b (by rw [e]; exact List.mem_append_left _ hb))
  · intro e; exact hn (h b (by rw [e]; exact List.mem_append_right _ hb))

def joinFields : List (List UInt8) → List UInt8
  | [] => []
  | [f] => f
  | f :: f' :: fs => f ++ semicolon :: joinFields (f' :: fs)

theorem joinFields_text {fs : List (List UInt8)} (hne : fs ≠ []) (h : ∀ f ∈ fs, ∀ b ∈ f, Plain b) : FieldsText (joinFields fs) fs := by
  have semi : ∀ f ∈ fs, semicolon ∉ f := fun f hf hm => (h f hf _ hm).2.2.2 rfl
  induction fs with
  | nil => exact absurd rfl hne
  | cons f fs ih =>
    cases fs with
    | nil => exact .last _ _ (semi f List.mem_cons_self) (padded_plain (h f List.mem_cons_self))
    | cons f' fs =>
      rw [joinFields]
      exact .cons _ _ _ _ (semi f List.mem_cons_self) (padded_plain (h f List.mem_cons_self))
        (ih (by simp) (fun g hg => h g (List.mem_cons_of_mem _ hg)) (fun g hg => semi g (List.mem_cons_of_mem _ hg)))

theorem joinFields_mem {fs : List (List UInt8)} {b : UInt8} (h : b ∈ joinFields fs) : b = semicolon ∨ ∃ f ∈ fs, b ∈ f := by
  induction fs with
  | nil => cases h
  | cons f fs ih =>
    cases fs with
    | nil => exact .inr ⟨f, List.mem_cons_self, h⟩
    | cons f' fs =>
      rw [joinFields] at h
      rcases List.mem_append.mp h with h | h
      · exact .inr ⟨f, List.mem_cons_self, h⟩
      · rcases List.mem_cons.mp h with h | h
        · exact .inl h
        · rcases ih h with h | ⟨g, hg, h⟩
          · exact .inl h
          · exact .inr ⟨g, List.mem_cons_of_mem _ hg, h⟩

def renderRange (x : FileEntry) : List UInt8 := hexText x.1 ++ [0x2E, 0x2E] ++ hexText x.2.1

def renderLine (x : FileEntry) : List UInt8 := renderRange x ++ semicolon :: joinFields x.2.2

def renderFile : List FileEntry → List UInt8
  | [] => []
  | x :: es => renderLine x ++ newline :: renderFile es

/-- An entry that can be written. -/
structure Writable (x : FileEntry) : Prop where
  small : SmallEntry x
  fields : x.2.2 ≠ []
  plain : ∀ f ∈ x.2.2, ∀ b ∈ f, Plain b
  short : (joinFields x.2.2).length ≤ 1000

theorem renderRange_plain (x : FileEntry) : ∀ b ∈ renderRange x, Plain b := by
  intro b hb
  unfold renderRange at hb
  rcases List.mem_append.mp hb with hb | hb
  · rcases List.mem_append.mp hb with hb | hb
    · exact hexText_plain _ b hb
    · have : b = 0x2E := by simpa using hb
      subst this
      decide
  · exact hexText_plain _ b hb

theorem renderLine_mem {x : FileEntry} (h : Writable x) {b : UInt8} (hb : b ∈ renderLine x) : Plain b ∨ b = semicolon := by
  unfold renderLine at hb
  rcases List.mem_append.mp hb with hb | hb
  · exact .inl (renderRange_plain x b hb)
  · rcases List.mem_cons.mp hb with hb | hb
    · exact .inr hb
    · rcases joinFields_mem hb with hb | ⟨f, hf, hb⟩
      · exact .inr hb
      · exact .inl (h.plain f hf b hb)

theorem renderLine_entry {x : FileEntry} (h : Writable x) : IsEntryLine (renderLine x) x.1 x.2.1 x.2.2 := by
  have hs := h.small
  unfold SmallEntry at hs
  refine ⟨renderRange x, renderRange x, joinFields x.2.2, ⟨?_, .inl rfl⟩, ?_, padded_plain (renderRange_plain x),
    ⟨by omega, by omega, .inr ⟨_, _, rfl, hexText_isHex _, hexText_isHex _⟩⟩, joinFields_text h.fields h.plain⟩
  · intro hm
    rcases renderLine_mem h hm with hm | hm
    · exact hm.2.2.1 rfl
    · exact absurd hm (by decide)
  · intro hm
    exact (renderRange_plain x _ hm).2.2.2 rfl

theorem render_file {es : List FileEntry} (h : ∀ x ∈ es, Writable x) : FileOf (es.map renderLine) (renderFile es) := by
  induction es with
  | nil => exact .nil
  | cons x es ih =>
    have hx := h x List.mem_cons_self
    rw [List.map_cons, renderFile]
    refine .lf _ _ _ ?_ ?_ (ih fun y hy => h y (List.mem_cons_of_mem _ hy))
    · intro hm
      rcases renderLine_mem hx hm with hm | hm
      · exact absurd hm (by decide)
      · exact absurd hm (by decide)
    · intro hm
      rcases renderLine_mem hx (List.mem_of_getLast? hm) with hm | hm
      · exact absurd hm (by decide)
      · exact absurd hm (by decide)

theorem render_mean {es : List FileEntry} (h : ∀ x ∈ es, Writable x) : LinesMean (es.map renderLine) es .complete := by
  induction es with
  | nil => exact .done
  | cons x es ih =>
    exact .entry _ _ _ _ _ _ _ (renderLine_entry (h x List.mem_cons_self)) (ih fun y hy => h y (List.mem_cons_of_mem _ hy))

theorem renderLine_length {x : FileEntry} (h : Writable x) : (renderLine x).length ≤ 65534 := by
  have hs := h.small
  unfold SmallEntry at hs
  have h1 := hexText_length 7 x.1 (by omega)
  have h2 := hexText_length 7 x.2.1 (by omega)
  have h3 := h.short
  unfold renderLine renderRange
  simp only [List.length_append, List.length_cons, List.length_nil]
  omega

theorem render_dataFile {es : List FileEntry} (h : ∀ x ∈ es, Writable x) {fuel : Nat} (hf : (renderFile es).length < fuel) :
    DataFile bytesReader (renderFile es) .eof fuel es .complete where
  file := ⟨renderFile es, es.map renderLine, .inl ⟨bytesReader_delivers _, render_file h, shortLines_of_lines (render_file h) (by
    intro l hl
    obtain ⟨x, hx, rfl⟩ := List.mem_map.mp hl
    exact renderLine_length (h x hx))⟩, render_mean h, hf⟩
  small := fun x hx => (h x hx).small

end Textseg.Gen
