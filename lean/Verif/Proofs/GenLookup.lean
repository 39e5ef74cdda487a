import Verif.Proofs.GenResult
import Verif.Proofs.Scan
/-!
# Looking up characters in the generated tables
-/

namespace Textseg.Gen
open Textseg Spec

/-- The value at the 6-bit groups of a sequence of two or more bytes. -/
def valueAt (F : Nat → UInt8) (p : List Nat) (j : Nat) : UInt8 := ((leafF F p)[j]?).getD 0

/-- `tab` is the generated table of indices, narrowed to bytes. -/
def Narrow (indices : List UInt16) (tab : List UInt8) : Prop :=
  ∀ (i : Nat) (w : UInt16), indices[i]? = some w → ∃ x : UInt8, tab[i]? = some x ∧ x.toNat = w.toNat

theorem read_leaf {F props} {v j : Nat} {p : List Nat} (h : slice props v = leafF F p) (hj : j < 64) :
    goIndex props ((v <<< 6) + j) = .ok (valueAt F p j) := by
  apply goIndex_some
  rw [shl6, ← slice_get hj, h]
  unfold valueAt
  rw [List.getElem?_eq_getElem (by rw [leafF_length]; exact hj)]
  rfl

theorem read_index {L props indices tab} (hn : Narrow indices tab) {n v : Nat} {p : List Nat}
    (h : Reads L props indices (n + 1) v p) {d : Nat} (hd : d < 64) :
    ∃ x : UInt8, goIndex tab ((v <<< 6) + d) = .ok x ∧ Reads L props indices n x.toNat (p ++ [d]) := by
  obtain ⟨w, h1, h2⟩ := h d hd
  obtain ⟨x, h3, h4⟩ := hn _ _ h1
  refine ⟨x, ?_, by rw [h4]; exact h2⟩
  apply goIndex_some
  rw [shl6]
  exact h3

theorem read_root {F st tab} (hf : Final F st) (hn : Narrow st.indices tab) {d : Nat} (hd : d < 64) :
    ∃ x : UInt8, goIndex tab d = .ok x ∧ Reads (leafF F) st.props st.indices (lev d) x.toNat [d] := by
  obtain ⟨w, h1, h2⟩ := hf.found d hd
  obtain ⟨x, h3, h4⟩ := hn _ _ h1
  refine ⟨x, goIndex_some h3, ?_⟩
  rw [h4]
  exact reads_of_find (leafF_length F) hf.sound h2

theorem read_ascii {F st} (hf : Final F st) {b : Nat} (hb : b < 128) : goIndex st.props b = .ok (F b) := by
  apply goIndex_some
  have : (st.props.take 128)[b]? = st.props[b]? := by rw [List.getElem?_take, if_pos hb]
  rw [← this, hf.ascii, List.getElem?_append, blockF_length]
  by_cases h : b < 64
  · rw [if_pos h]; simp [blockF, h]
  · rw [if_neg h]
    simp [blockF, show b - 64 < 64 by omega]
    congr 1
    omega

/-- The value of a sequence. -/
def seqValue (F : Nat → UInt8) : List UInt8 → UInt8
  | [b] => F b.toNat
  | [b, c] => valueAt F [b.toNat % 64] (c.toNat % 64)
  | [b, c, d] => valueAt F [b.toNat % 64, c.toNat % 64] (d.toNat % 64)
  | [b, c, d, e] => valueAt F [b.toNat % 64, c.toNat % 64, d.toNat % 64] (e.toNat % 64)
  | _ => 0

theorem switch_seq {F st tab} (hf : Final F st) (hn : Narrow st.indices tab) {bs : List UInt8} (h : IsSeq bs)
    (rest : List UInt8) (b : UInt8) (t : List UInt8) (hb : bs = b :: t) :
    lookupSwitchIn (goIndex tab) (goIndex st.props) (bs ++ rest) b bs.length = .ok (seqValue F bs, bs.length) := by
  cases h with
  | one b' h =>
    cases hb
    have hb : b.toNat ≤ 127 := h
    simp [lookupSwitchIn, read_ascii hf (show b.toNat < 128 by omega), seqValue, bind, Except.bind]
  | two b' c h1 h2 h3 =>
    cases hb
    have b1 : 0xC0 ≤ b.toNat := h1
    have b2 : b.toNat ≤ 0xDF := h2
    obtain ⟨x, e1, r1⟩ := read_root hf hn (d := b.toNat % 64) (by omega)
    rw [show lev (b.toNat % 64) = 0 by unfold lev; rw [if_pos (by omega)]] at r1
    have e2 := read_leaf r1 (j := c.toNat % 64) (by omega)
    simp only [lookupSwitchIn, and63, goIndex, List.length_cons, List.length_nil, List.cons_append, List.getElem?_cons_succ, List.getElem?_cons_zero]
    unfold goIndex at e1 e2
    simp [e1, e2, bind, Except.bind, seqValue]
  | three b' c d h1 h2 h3 h4 =>
    cases hb
    have b1 : 0xE0 ≤ b.toNat := h1
    have b2 : b.toNat ≤ 0xEF := h2
    obtain ⟨x, e1, r1⟩ := read_root hf hn (d := b.toNat % 64) (by omega)
    rw [show lev (b.toNat % 64) = 1 by unfold lev; rw [if_neg (by omega), if_pos (by omega)]] at r1
    obtain ⟨y, e2, r2⟩ := read_index hn r1 (d := c.toNat % 64) (by omega)
    have e3 := read_leaf r2 (j := d.toNat % 64) (by omega)
    simp only [lookupSwitchIn, and63, goIndex, List.length_cons, List.length_nil, List.cons_append, List.getElem?_cons_succ, List.getElem?_cons_zero]
    unfold goIndex at e1 e2 e3
    simp [e1, e2, e3, bind, Except.bind, seqValue]
  | four b' c d e h1 h2 h3 h4 h5 =>
    cases hb
    have b1 : 0xF0 ≤ b.toNat := h1
    have b2 : b.toNat ≤ 0xF7 := h2
    obtain ⟨x, e1, r1⟩ := read_root hf hn (d := b.toNat % 64) (by omega)
    rw [show lev (b.toNat % 64) = 2 by unfold lev; rw [if_neg (by omega), if_neg (by omega)]] at r1
    obtain ⟨y, e2, r2⟩ := read_index hn r1 (d := c.toNat % 64) (by omega)
    obtain ⟨z, e3, r3⟩ := read_index hn r2 (d := d.toNat % 64) (by omega)
    have e4 := read_leaf r3 (j := e.toNat % 64) (by omega)
    simp only [lookupSwitchIn, and63, goIndex, List.length_cons, List.length_nil, List.cons_append, List.getElem?_cons_succ, List.getElem?_cons_zero]
    unfold goIndex at e1 e2 e3 e4
    simp [e1, e2, e3, e4, bind, Except.bind, seqValue]

theorem lookupIn_seq {ia pa : Nat → Go UInt8} {bs : List UInt8} (h : IsSeq bs) (rest : List UInt8) :
    ∃ b t, bs = b :: t ∧ LookupFirstCharIn ia pa (bs ++ rest) = lookupSwitchIn ia pa (bs ++ rest) b bs.length := by
  match bs, h with
  | b :: t, h =>
    refine ⟨b, t, rfl, ?_⟩
    obtain ⟨h1, h2⟩ := (isSeq_cons_iff b t).mp h
    rw [List.cons_append, LookupFirstCharIn]
    simp only [seqLength_announced, h1]
    rw [if_neg (by simp), continuationLoop_eq _ _ _ (by simp; omega)]
    have : ∀ c ∈ ((b :: (t ++ rest)).drop 1).take (t.length + 1 - 1), IsCont c := by simpa using h2
    rw [decide_eq_true this]
    rfl

/-- The lookup in the generated tables never panics. -/
theorem lookupIn_total {F st tab} (hf : Final F st) (hn : Narrow st.indices tab) (p : List UInt8) :
    ∃ r, LookupFirstCharIn (goIndex tab) (goIndex st.props) p = .ok r := by
  by_cases hp : p = []
  · subst hp; exact ⟨_, rfl⟩
  · rcases first_cases p hp with ⟨bs, rest, h1, h2⟩ | ⟨b, t, n, rfl, h1, h2⟩ | ⟨b, t, rfl, h1⟩ | ⟨b, t, n, rfl, h1, h2, h3⟩
    · obtain ⟨b, t, hb, e⟩ := lookupIn_seq (ia := goIndex tab) (pa := goIndex st.props) h1 rest
      rw [h2, e, switch_seq hf hn h1 rest b t hb]
      exact ⟨_, rfl⟩
    · refine ⟨(0, 0), ?_⟩
      rw [LookupFirstCharIn]
      simp only [seqLength_announced, h1]
      rw [if_pos (by simpa using h2)]; rfl
    · refine ⟨(ErrorProps, 1), ?_⟩
      rw [LookupFirstCharIn]
      simp only [seqLength_announced, h1]
    · refine ⟨(ErrorProps, 1), ?_⟩
      have hn1 : 1 ≤ n := by
        unfold announced at h1
        split at h1 <;> (try split at h1) <;> (try split at h1) <;> (try split at h1) <;> (try split at h1) <;> simp at h1 <;> omega
      rw [LookupFirstCharIn]
      simp only [seqLength_announced, h1]
      rw [if_neg (by simp; omega), continuationLoop_eq _ _ _ (by simp; omega)]
      have : ¬ ∀ c ∈ ((b :: t).drop 1).take (n - 1), IsCont c := by
        obtain ⟨c, h1, h2⟩ := h3
        exact fun h => h2 (h c (by simpa using h1))
      rw [decide_eq_false this]
      rfl

theorem seqValue_char (F : Nat → UInt8) (c : Char) : seqValue F (String.utf8EncodeChar c) = F c.val.toNat := by
  by_cases hc : c.val.toNat < 128
  · have e : String.utf8EncodeChar c = [UInt8.ofNat c.val.toNat] := by
      unfold String.utf8EncodeChar
      simp only
      rw [if_pos (by omega)]
    rw [e]
    show F (UInt8.ofNat c.val.toNat).toNat = _
    rw [UInt8.toNat_ofNat', Nat.mod_eq_of_lt (by omega)]
  · obtain ⟨nested, pen, fin, e1, e2, e3⟩ := encode_path c (by omega)
    have hlt := isValidChar_lt (char_valid c)
    have hv : valueAt F (pathOf (c.val.toNat / 64)) (c.val.toNat % 64) = F c.val.toNat := by
      unfold valueAt leafF
      rw [kOf_pathOf (by omega) (by omega)]
      simp only [blockF, List.getElem?_map, List.getElem?_range (show c.val.toNat % 64 < 64 by omega), Option.map_some,
        Option.getD_some]
      congr 1
      omega
    rw [← hv, ← e2, ← e3, e1]
    have hlen := (isSeq_encode c).length_le
    rw [e1] at hlen
    rcases nested with _ | ⟨a, _ | ⟨b, _ | ⟨x, nested⟩⟩⟩
    · rfl
    · rfl
    · rfl
    · simp at hlen

theorem lookupIn_char {F st tab} (hf : Final F st) (hn : Narrow st.indices tab) (c : Char) (rest : List UInt8) :
    LookupFirstCharIn (goIndex tab) (goIndex st.props) (String.utf8EncodeChar c ++ rest) =
      .ok (F c.val.toNat, (String.utf8EncodeChar c).length) := by
  obtain ⟨b, t, hb, e⟩ := lookupIn_seq (ia := goIndex tab) (pa := goIndex st.props) (isSeq_encode c) rest
  rw [e, switch_seq hf hn (isSeq_encode c) rest b t hb, seqValue_char]

theorem narrow_output {raw : RawPropertyTree} {tab : List UInt8} (h : outputIndices raw = .ok tab) : Narrow raw.Indices tab := by
  unfold outputIndices at h
  split at h
  · next hall =>
    simp only [Except.ok.injEq] at h
    subst h
    intro i w hw
    refine ⟨w.toUInt8, by simp [hw], ?_⟩
    have := List.all_eq_true.mp hall w (List.mem_of_getElem? hw)
    simp only [decide_eq_true_eq] at this
    have : w.toNat ≤ 255 := this
    rw [UInt16.toNat_toUInt8]
    omega
  · exact absurd h (by simp)

end Textseg.Gen
