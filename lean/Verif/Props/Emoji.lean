import Verif.Proofs.Emoji
/-!
# C56: emoji sequences are never split
-/

namespace Textseg.Props
open Textseg Spec Gen

/-- **C56.** The data about emoji in `Verif/Spec/EmojiData.lean` are the entries of the committed emoji-data.txt for the properties
Emoji, Emoji_Modifier_Base and Emoji_Modifier. -/
theorem C56_data_file : ∃ es, LinesMean (Text.emojiData.flatten.map textLine) es .complete ∧
    es.filter (fun x => x.2.2.head? ∈ [some (ascii "Emoji"), some (ascii "Emoji_Modifier_Base"), some (ascii "Emoji_Modifier")]) =
      emojiEntries.map fun r => (r.1, r.2.1, [match r.2.2 with
        | .Emoji => ascii "Emoji"
        | .ModifierBase => ascii "Emoji_Modifier_Base"
        | .Modifier => ascii "Emoji_Modifier"]) := by
  obtain ⟨es, r⟩ := allRead_sound emoji_kinds' emoji_checked'
  refine ⟨es, r.mean, ?_⟩
  have h := r.filter
  have e : (fun x : FileEntry => decide (x.2.2.head? ∈ [some (ascii "Emoji"), some (ascii "Emoji_Modifier_Base"),
      some (ascii "Emoji_Modifier")])) = fun x => emojiRel x.2.2 := by
    funext x
    rw [Bool.eq_iff_iff]
    simp only [emojiRel, List.mem_cons, List.not_mem_nil, or_false, decide_eq_true_eq, Bool.or_eq_true, beq_iff_eq, or_assoc]
  rw [e, h]
  refine List.map_congr_left fun r _ => ?_
  obtain ⟨a, b, g⟩ := r
  cases g <;> rfl

/-- **C56.** Wherever an emoji sequence occurs in a text, no token boundary lies inside it. -/
theorem C56_never_split (pre s post : List Char) (hs : EmojiSequence s)
    (toks : List (List UInt8)) (ht : tokens (utf8 (pre ++ s ++ post)) = .ok toks) : Unbroken toks pre s :=
  sequence_unbroken hs ht

/-- **C56.** An emoji sequence by itself is a single token. -/
theorem C56_single_token (s : List Char) (hs : EmojiSequence s) : tokens (utf8 s) = .ok [utf8 s] :=
  single_token (sequence_ne hs) fun toks ht => sequence_unbroken (post := []) hs (by simpa using ht)

/-- **C56.** The same for a flag, unless a regional indicator comes before it. -/
theorem C56_flags (pre post : List Char) (m n : Nat) (hm : m < 26) (hn : n < 26)
    (hpre : ∀ w c, pre = w ++ [c] → gcbOf c ≠ .RegionalIndicator) (toks : List (List UInt8))
    (ht : tokens (utf8 (pre ++ [regionalIndicator m, regionalIndicator n] ++ post)) = .ok toks) :
    Unbroken toks pre [regionalIndicator m, regionalIndicator n] := by
  intro u v he hu hv
  match u, hu with
  | [a], _ =>
    simp only [List.cons_append, List.nil_append, List.cons.injEq] at he
    have := C20_flags_pair_up pre [regionalIndicator m, regionalIndicator n] post (by
      intro r hr
      simp only [List.mem_cons, List.not_mem_nil, or_false] at hr
      rcases hr with rfl | rfl
      · exact ri_gcb hm
      · exact ri_gcb hn) hpre toks ht 1 (by omega) (by simp)
    rw [← he.1]
    intro h
    exact absurd (this.mp h) (by decide)
  | a :: b :: u, _ =>
    have := congrArg List.length he
    have hv := List.length_pos_iff.mpr hv
    simp only [List.length_cons, List.length_append, List.length_nil] at this
    omega

/-- **C56.** The restriction on elements that are joined is necessary: a sequence joined from keycap bases, which UTS #51 permits
but does not recommend, is split. -/
theorem C56_joined_digits : HasEmojiProperty .Emoji '1' ∧ HasEmojiProperty .Emoji '2' ∧
    tokens (utf8 ['1', '\u200D', '2']) = .ok [utf8 ['1', '\u200D'], utf8 ['2']] := by
  refine ⟨⟨(0x30, 0x39, .Emoji), by decide +kernel, rfl, by decide, by decide⟩,
    ⟨(0x30, 0x39, .Emoji), by decide +kernel, rfl, by decide, by decide⟩, by decide +kernel⟩

/-- A woman, with a modifier, joined with a rocket: an astronaut; the flag of Scotland; a keycap. -/
example : EmojiSequence [(Char.ofNat 0x1F469), (Char.ofNat 0x1F3FD), '\u200D', (Char.ofNat 0x1F680)] := by
  have base : HasEmojiProperty .ModifierBase (Char.ofNat 0x1F469) := ⟨(0x1F466, 0x1F46B, .ModifierBase), by decide +kernel, rfl, by decide, by decide⟩
  have modi : HasEmojiProperty .Modifier (Char.ofNat 0x1F3FD) := modifier_range.mpr (by decide)
  have rocket : HasEmojiProperty .Emoji (Char.ofNat 0x1F680) := ⟨(0x1F680, 0x1F680, .Emoji), by decide +kernel, rfl, by decide, by decide⟩
  have j1 : EmojiJoinable (Char.ofNat 0x1F469) := ⟨by decide, by decide, fun h => absurd (modifier_range.mp h) (by decide)⟩
  have j2 : EmojiJoinable (Char.ofNat 0x1F680) := ⟨by decide, by decide, fun h => absurd (modifier_range.mp h) (by decide)⟩
  exact .joined _ (.more [(Char.ofNat 0x1F469), (Char.ofNat 0x1F3FD)] (Char.ofNat 0x1F680) [] (.one _ _ (.modified _ _ base modi) j1) (.character _ rocket) j2)
example : EmojiSequence ((Char.ofNat 0x1F3F4) :: [0x67, 0x62, 0x73, 0x63, 0x74].map tagChar ++ [tagChar 0x7F]) :=
  .tag [(Char.ofNat 0x1F3F4)] _ (.character _ ⟨(0x1F3F4, 0x1F3F4, .Emoji), by decide +kernel, rfl, by decide, by decide⟩) (by decide)
example : EmojiSequence ['#', '\uFE0F', '\u20E3'] := .keycap _ (by decide)

end Textseg.Props
