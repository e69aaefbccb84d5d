import Verif.Lemmas.Lists
import Verif.Model.ErrorText
/-
C50, C51: what the error of flags that cannot be encoded says.
-/
namespace CC

/-- C50: the message of the error names the separator; there is no further cause. -/
theorem C50_message (sh : Shown) (f : EFlags) (e : Err) (h : f.encode = .err e) :
    e.display sh = "flag in rustflags must not contain its separator ('\\u{1f}')".toList ∧ e.source = none := by
  cases encodeLoop_eq_err h
  refine ⟨?_, rfl⟩
  show fill _ _ = _
  decide +kernel

/-- C51: likewise for the space. -/
theorem C51_message (sh : Shown) (f : EFlags) (e : Err) (h : f.encodeSpaceSeparated = .err e) :
    e.display sh = "flag in rustflags must not contain its separator (' ')".toList ∧ e.source = none := by
  cases encodeLoop_eq_err h
  refine ⟨?_, rfl⟩
  show fill _ _ = _
  decide +kernel

example : ∃ e, (EFlags.encodeSpaceSeparated ⟨["-C".toList, "a b".toList]⟩) = .err e := ⟨_, rfl⟩
example : ∃ e, (EFlags.encode ⟨["-C".toList, [Char.ofNat 0x1f]]⟩) = .err e := ⟨_, rfl⟩

example (sh : Shown) : ∃ e, EFlags.encode ⟨["-C".toList, [Char.ofNat 0x1f]]⟩ = .err e ∧
    e.display sh = "flag in rustflags must not contain its separator ('\\u{1f}')".toList := ⟨_, rfl, (C50_message sh ⟨["-C".toList, [Char.ofNat 0x1f]]⟩ _ rfl).1⟩

end CC
