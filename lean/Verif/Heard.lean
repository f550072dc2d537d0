import Verif.Go

set_option autoImplicit false

/-!
# What a serial reader hears

Both readers (actisense.go:92-135, canport.go:131-168) ignore the number of bytes a read returned: a read that
returned nothing leaves the one-byte buffer as it was, so the byte before is processed again.
-/

namespace Argo

/-- The byte strings between read errors, an empty read counting as the byte before it once more (as 0 at the
beginning): `cur` has been heard so far, `last` is its last byte. -/
def heard (last : Byte) (cur : List Byte) : List Ev → List (List Byte)
  | [] => [cur]
  | .fail :: es => cur :: heard 0 [] es
  | .byte b :: es => heard b (cur ++ [b]) es
  | .empty :: es => heard last (cur ++ [last]) es

/-- What has been heard stays at the beginning. -/
theorem heard_head (evs : List Ev) : ∀ (last : Byte) (cur : List Byte), ∃ ext segs,
    heard last cur evs = (cur ++ ext) :: segs := by
  induction evs with
  | nil => intro last cur; exact ⟨[], [], by simp [heard]⟩
  | cons e evs ih =>
    intro last cur
    cases e with
    | fail => exact ⟨[], _, by rw [heard, List.append_nil]⟩
    | byte b =>
      obtain ⟨ext, segs, h⟩ := ih b (cur ++ [b])
      exact ⟨b :: ext, segs, by rw [heard, h, List.append_assoc]; rfl⟩
    | empty =>
      obtain ⟨ext, segs, h⟩ := ih last (cur ++ [last])
      exact ⟨last :: ext, segs, by rw [heard, h, List.append_assoc]; rfl⟩

end Argo
