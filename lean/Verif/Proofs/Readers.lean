import Verif.Model.Readers
import Verif.Spec.Streaming
/-!
# What the readers deliver
-/

namespace Textseg
open Spec

theorem dripReader_delivers (D : List UInt8) : Delivers dripReader .eof D D 0 := by
  induction D with
  | nil =>
    refine .mk _ _ _ (fun _ => []) (fun room _ => ?_) (fun room _ hc => ?_)
    · exact .last rfl (Nat.zero_le _) rfl
    · exact absurd hc.2.2.1 (by simp [dripReader])
  | cons b rest ih =>
    refine .mk _ _ _ (fun _ => rest) (fun room hr => ?_) (fun room hr hc => ?_)
    · have e : dripReader (b :: rest) room = { bytes := [b], n := 1, err := none, next := rest } := by
        simp only [dripReader]; rw [if_neg (by omega)]
      rw [e]
      exact .bytes rest rfl hr rfl (fun h => by cases h)
    · have e : dripReader (b :: rest) room = { bytes := [b], n := 1, err := none, next := rest } := by
        simp only [dripReader]; rw [if_neg (by omega)]
      rw [e]
      exact ih

theorem bytesReader_delivers (D : List UInt8) : Delivers bytesReader .eof D D 0 := by
  induction h : D.length using Nat.strongRecOn generalizing D with
  | ind n ih =>
    cases D with
    | nil =>
      refine .mk _ _ _ (fun _ => []) (fun room _ => ?_) (fun room _ hc => ?_)
      · exact .last rfl (Nat.zero_le _) rfl
      · exact absurd hc.2.2.1 (by simp [bytesReader])
    | cons b t =>
      have hne : ∀ room, 0 < room → ((b :: t).take room) ≠ [] := by
        intro room hr h
        match room, hr with
        | room + 1, _ => cases h
      refine .mk _ _ _ (fun room => (b :: t).drop room) (fun room hr => ?_) (fun room hr hc => ?_)
      · have := ReadStep.bytes (E := .eof) (r := bytesReader (b :: t) room) (room := room) (k := 0) ((b :: t).drop room) rfl
          (by simp only [bytesReader, List.length_take]; omega) rfl (fun h => absurd h (hne room hr))
        simp only [bytesReader, List.take_append_drop] at this ⊢
        exact this
      · have e : (bytesReader (b :: t) room).bytes ≠ [] := hne room hr
        rw [if_neg e]
        exact ih ((b :: t).drop room).length (by rw [← h, List.length_drop, List.length_cons]; omega) _ rfl

/-- No more than 100 empty pieces in a row, `k` of them having gone before. -/
def FewEmpty : Nat → List (List UInt8) → Prop
  | _, [] => True
  | k, p :: rest => if p = [] then k < 100 ∧ FewEmpty (k + 1) rest else FewEmpty 0 rest

theorem pieceReader_delivers (E : IOErr) (pieces : List (List UInt8)) : ∀ k, FewEmpty k pieces →
    Delivers (pieceReader E) E pieces pieces.flatten k := by
  induction pieces with
  | nil =>
    intro k _
    refine .mk _ _ _ (fun _ => []) (fun room _ => ?_) (fun room _ hc => ?_)
    · exact .last rfl (Nat.zero_le _) rfl
    · exact absurd hc.2.2.1 (by simp [pieceReader])
  | cons p rest ih =>
    intro k hk
    induction h : p.length using Nat.strongRecOn generalizing p k with
    | ind n ihp =>
      refine .mk _ _ _ (fun room => if p.length ≤ room then rest.flatten else (p.drop room ++ rest.flatten)) (fun room hr => ?_)
        (fun room hr hc => ?_)
      · by_cases hp : p.length ≤ room
        · have := ReadStep.bytes (E := E) (r := pieceReader E (p :: rest) room) (room := room) (k := k) rest.flatten
            (by simp only [pieceReader, if_pos hp]) (by simp only [pieceReader, if_pos hp]; exact hp)
            (by simp only [pieceReader, if_pos hp])
            (by simp only [pieceReader, if_pos hp]; intro h0; unfold FewEmpty at hk; rw [if_pos h0] at hk; exact hk.1)
          simp only [pieceReader, if_pos hp] at this ⊢
          exact this
        · have := ReadStep.bytes (E := E) (r := pieceReader E (p :: rest) room) (room := room) (k := k) (p.drop room ++ rest.flatten)
            (by simp only [pieceReader, if_neg hp]) (by simp only [pieceReader, if_neg hp, List.length_take]; omega)
            (by simp only [pieceReader, if_neg hp])
            (by
              simp only [pieceReader, if_neg hp]
              intro h0
              have := congrArg List.length h0
              simp only [List.length_take, List.length_nil] at this
              omega)
          simp only [pieceReader, if_neg hp] at this ⊢
          rw [← List.append_assoc, List.take_append_drop] at this
          exact this
      · by_cases hp : p.length ≤ room
        · simp only [pieceReader, if_pos hp]
          unfold FewEmpty at hk
          by_cases h0 : p = []
          · rw [if_pos h0] at hk ⊢; exact ih _ hk.2
          · rw [if_neg h0] at hk ⊢; exact ih _ hk
        · simp only [pieceReader, if_neg hp]
          have hl : (p.drop room).length ≠ 0 := by rw [List.length_drop]; omega
          have hne : p.drop room ≠ [] := fun h0 => hl (by rw [h0]; rfl)
          have hp0 : p ≠ [] := fun h0 => hp (by rw [h0]; exact Nat.zero_le _)
          rw [if_neg (by
              intro h0
              have := congrArg List.length h0
              simp only [List.length_take, List.length_nil] at this
              omega)]
          refine ihp (p.drop room).length (by rw [List.length_drop]; omega) _ 0 ?_ rfl
          unfold FewEmpty at hk ⊢
          rw [if_neg hp0] at hk
          rw [if_neg hne]; exact hk

theorem eagerReader_delivers (E : IOErr) (D : List UInt8) : Delivers (eagerReader E) E D D 0 := by
  induction h : D.length using Nat.strongRecOn generalizing D with
  | ind n ih =>
    refine .mk _ _ _ (fun room => if D.length ≤ room then [] else D.drop room) (fun room hr => ?_) (fun room hr hc => ?_)
    · by_cases hp : D.length ≤ room
      · simp only [eagerReader, if_pos hp]
        exact .last rfl hp rfl
      · have hne : D.take room ≠ [] := by
          intro h0
          have := congrArg List.length h0
          simp only [List.length_take, List.length_nil] at this
          omega
        have := ReadStep.bytes (E := E) (r := eagerReader E D room) (room := room) (k := 0) (D.drop room)
          (by simp only [eagerReader, if_neg hp]) (by simp only [eagerReader, if_neg hp, List.length_take]; omega)
          (by simp only [eagerReader, if_neg hp]) (by simp only [eagerReader, if_neg hp]; intro h0; exact absurd h0 hne)
        simp only [eagerReader, if_neg hp] at this ⊢
        rw [List.take_append_drop] at this
        exact this
    · by_cases hp : D.length ≤ room
      · have := hc.2.2.1
        simp only [eagerReader, if_pos hp] at this
        cases this
      · have hne : D.take room ≠ [] := by
          intro h0
          have := congrArg List.length h0
          simp only [List.length_take, List.length_nil] at this
          omega
        simp only [eagerReader, if_neg hp]
        rw [if_neg hne]
        exact ih _ (by rw [List.length_drop]; omega) _ rfl

theorem dripReader_separately : ErrorsSeparately dripReader := by
  intro s room h
  match s with
  | [] => rfl
  | b :: t =>
    exfalso
    apply h
    simp only [dripReader]
    split <;> rfl

theorem bytesReader_separately : ErrorsSeparately bytesReader := by
  intro s room h
  match s with
  | [] => rfl
  | b :: t => exact absurd rfl h

theorem pieceReader_separately (E : IOErr) : ErrorsSeparately (pieceReader E) := by
  intro s room h
  match s with
  | [] => rfl
  | b :: t =>
    exfalso
    apply h
    simp only [pieceReader]
    split <;> rfl

theorem eagerReader_together (E : IOErr) : ErrorsTogether (eagerReader E) E := by
  intro s room hr he k hd
  by_cases hp : s.length ≤ room
  · simp only [eagerReader, if_pos hp] at he; cases he
  · simp only [eagerReader, if_neg hp] at hd
    have hl : (s.drop room).length ≠ 0 := by rw [List.length_drop]; omega
    have hne : s.drop room ≠ [] := fun h => hl (by rw [h]; rfl)
    -- a reader with bytes left cannot deliver nothing
    generalize hD : ([] : List UInt8) = D at hd
    cases hd with
    | mk _ _ _ rest hstep hnext =>
      have h1 := hstep (s.drop room).length (by omega)
      simp only [eagerReader, Nat.le_refl, if_true] at h1
      generalize rest (s.drop room).length = R at h1
      cases h1 with
      | badCount h => simp only at h; omega
      | last => exact hne hD.symm
      | stuck => rename_i h1 h2 h3 h4 h5; cases h3
      | bytes => rename_i h1 h2 h3 h4; cases h3

end Textseg
