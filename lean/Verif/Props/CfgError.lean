import Verif.Lemmas.CfgReason
/-
C71: what the error of a rejected `cfg(..)` expression says.
-/
namespace CC

/-- C71: the error of a rejected expression names the first thing that is wrong with the text, at its place and with its reason.  What is
listed as possible there is so up to the exceptions of `ListsWhatFits`, and unless the text contains a character that does not begin a
token; see `C71_lists_fails` and `C71_char_fails`. -/
theorem C71_error_partial (checks : Bool) (text : Str) (err : Err) (h : Expression.parse checks text = .err err) :
    ∃ inner a b r, CfgInner text inner ∧ err = .cfgParse ⟨inner, ⟨a, b⟩, r⟩ ∧ Blame inner a b r := parse_blame h

/-- C71: the message consists of the text, and below it of marks at that place and the reason in words. -/
theorem C71_message (checks : Bool) (text : Str) (err : Err) (h : Expression.parse checks text = .err err) :
    ∃ inner a b r, CfgInner text inner ∧ err = .cfgParse ⟨inner, ⟨a, b⟩, r⟩ ∧
      ParseError.display ⟨inner, ⟨a, b⟩, r⟩ =
        inner ++ "\n".toList ++ List.replicate a ' ' ++ marks a b r ++ " ".toList ++ reasonText r := by
  obtain ⟨inner, a, b, r, h1, h2, h3⟩ := parse_blame h
  refine ⟨inner, a, b, r, h1, h2, ?_⟩
  have hd := reason_display r
  have hm : r = .unopenedParens → b - a = 1 := by
    rintro rfl
    cases h3
    omega
  unfold ParseError.display
  cases r with
  | unopenedParens => simp [marks, hm rfl, hd]
  | unclosedParens => simp [marks, hd]
  | unclosedQuotes => simp [marks, hd]
  | _ => simp [marks, hd]

/-- C71: in a text of ASCII characters the marks are below the characters they are about. -/
theorem C71_marks (checks : Bool) (text : Str) (pe : ParseError) (h : Expression.parse checks text = .err (.cfgParse pe))
    (hascii : ∀ c ∈ text, c.toNat < 128) :
    ∃ pre mid post, pe.original = pre ++ mid ++ post ∧ pe.span.start = pre.length ∧ pe.span.stop = (pre ++ mid).length := by
  obtain ⟨inner, hi, pe', h1, h2, h3, h4⟩ := parse_err h
  cases h1
  subst h2
  have hin : ∀ c ∈ pe.original, c.toNat < 128 := by
    intro c hc
    refine hascii c ?_
    rcases hi with hi | ⟨hi, _⟩
    · rw [hi]; simp [hc]
    · rw [hi]; exact hc
  rw [utf8Len_ascii hin] at h4
  refine ⟨pe.original.take pe.span.start, (pe.original.drop pe.span.start).take (pe.span.stop - pe.span.start),
    pe.original.drop pe.span.stop, ?_, ?_, ?_⟩
  · have e : pe.original.drop pe.span.stop = (pe.original.drop pe.span.start).drop (pe.span.stop - pe.span.start) := by
      rw [List.drop_drop]; congr 1; omega
    rw [e, List.append_assoc, List.take_append_drop, List.take_append_drop]
  · simp; omega
  · simp; omega

/-- The error, if there is one. -/
def errorOf (r : Res Expression) : Option ParseError :=
  match r with
  | .err (.cfgParse e) => some e
  | _ => none

theorem parse_of_errorOf {r : Res Expression} {pe : ParseError} (h : errorOf r = some pe) : r = .err (.cfgParse pe) := by
  unfold errorOf at h
  split at h
  · cases Option.some.inj h; rfl
  · cases h

/-- C71 fails for texts that are not ASCII: columns are counted in bytes.  The mark for `b` is one column too far to the right. -/
theorem C71_marks_fails : ∃ text pre post pe, Expression.parse true text = .err (.cfgParse pe) ∧ pe.original = pre ++ 'b' :: post ∧
    'b' ∉ pre ∧ 'b' ∉ post ∧ pe.display = text ++ '\n' :: (List.replicate (pre.length + 1) ' ' ++ "^ expected one of `,`, `)` here".toList) :=
  ⟨"a = \"é\" b".toList, "a = \"é\" ".toList, [], ⟨"a = \"é\" b".toList, ⟨9, 10⟩, .unexpected [",".toList, ")".toList]⟩,
    parse_of_errorOf (by decide +kernel), by decide, by decide, by decide, by decide +kernel⟩

/-- C71 fails for a character that does not begin a token: whatever is before it, what is listed is what may begin a formula. -/
theorem C71_char_fails : ∃ text pe, Expression.parse true text = .err (.cfgParse pe) ∧ ReadsAs (text.take 2) [.key ['a']] ∧
    pe.reason = .unexpected beginnings ∧ ∀ x ∈ beginnings, ∀ t, Names x t → ¬ Extends [.key ['a'], t] := by
  refine ⟨"a $".toList, ⟨"a $".toList, ⟨2, 3⟩, .unexpected beginnings⟩, parse_of_errorOf (by decide +kernel), ?_, rfl, ?_⟩
  · refine .cons [] (.key ['a']) [' '] _ (by simp) ⟨⟨'a', [], rfl, by rw [← isIdentStart_iff]; decide, by simp⟩, by decide, by decide,
      by decide⟩ ?_ (.nil _ (by decide))
    intro _ c hc; simp at hc; subst hc; rw [← isIdentRest_iff]; decide
  · intro x hx t hn he
    obtain ⟨y, hy⟩ := (extends_iff _).1 he
    simp only [beginnings, List.mem_cons, List.not_mem_nil, or_false] at hx
    rcases hx with rfl | rfl | rfl | rfl
    · obtain ⟨k, rfl⟩ := names_key hn
      simp [scanFrom, scanStep, startsItem] at hy
    · cases names_other (u := .all) hn rfl (by decide) (by decide) (by simp)
      simp [scanFrom, scanStep, startsItem] at hy
    · cases names_other (u := .any) hn rfl (by decide) (by decide) (by simp)
      simp [scanFrom, scanStep, startsItem] at hy
    · cases names_other (u := .not) hn rfl (by decide) (by decide) (by simp)
      simp [scanFrom, scanStep, startsItem] at hy

/-- C71 fails: `)` is listed although no function is open; and after a comma `all`, `any` and `not` are not listed. -/
theorem C71_lists_fails :
    (∃ es, errorOf (Expression.parse true "a b".toList) = some ⟨"a b".toList, ⟨2, 3⟩, .unexpected es⟩ ∧ ")".toList ∈ es ∧
      ¬ Extends [.key ['a'], .closeParen]) ∧
    (∃ es, errorOf (Expression.parse true "a, =".toList) = some ⟨"a, =".toList, ⟨3, 4⟩, .unexpected es⟩ ∧
      ∀ f : FnName, f.token.text ∉ es ∧ Extends [.key ['a'], .comma, f.token]) := by
  refine ⟨⟨["=".toList, ",".toList, ")".toList], by decide +kernel, by decide, ?_⟩,
    ⟨[")".toList, "<key>".toList], by decide +kernel, ?_⟩⟩
  · intro he
    obtain ⟨y, hy⟩ := (extends_iff _).1 he
    simp [scanFrom, scanStep, startsItem, badBeforeClose] at hy
  · intro f
    refine ⟨by cases f <;> decide, (extends_iff _).2 ?_⟩
    cases f <;> simp [scanFrom, scanStep, startsItem, badBeforeComma, FnName.token]

/-! One text for each of the reasons. -/

example : errorOf (Expression.parse true "cfg(a b)".toList) =
      some ⟨"a b".toList, ⟨2, 3⟩, .unexpected ["=".toList, ",".toList, ")".toList]⟩ ∧
    errorOf (Expression.parse true "a)".toList) = some ⟨"a)".toList, ⟨1, 2⟩, .unopenedParens⟩ ∧
    errorOf (Expression.parse true "a $".toList) = some ⟨"a $".toList, ⟨2, 3⟩, .unexpected beginnings⟩ ∧
    errorOf (Expression.parse true "a = \"b".toList) = some ⟨"a = \"b".toList, ⟨4, 6⟩, .unclosedQuotes⟩ ∧
    errorOf (Expression.parse true "any(not(a, b), $".toList) = some ⟨"any(not(a, b), $".toList, ⟨4, 13⟩, .invalidNot 2⟩ := by
  decide +kernel

example : errorOf (Expression.parse true "a =".toList) = some ⟨"a =".toList, ⟨3, 3⟩, .unexpected ["\"<value>\"".toList]⟩ ∧
    errorOf (Expression.parse true "all(any ".toList) = some ⟨"all(any ".toList, ⟨4, 7⟩, .unexpected ["(".toList]⟩ ∧
    errorOf (Expression.parse true "all(any(a, b".toList) = some ⟨"all(any(a, b".toList, ⟨7, 12⟩, .unclosedParens⟩ ∧
    errorOf (Expression.parse true "cfg()".toList) = some ⟨[], ⟨0, 0⟩, .empty⟩ ∧
    errorOf (Expression.parse true "a, b".toList) = some ⟨"a, b".toList, ⟨0, 4⟩, .multipleRootPredicates⟩ := by
  decide +kernel

/-- The three theorems for `cfg(a b)`. -/
example : Expression.parse true "cfg(a b)".toList =
      .err (.cfgParse ⟨"a b".toList, ⟨2, 3⟩, .unexpected ["=".toList, ",".toList, ")".toList]⟩) ∧
    (∃ inner a b r, CfgInner "cfg(a b)".toList inner ∧ Blame inner a b r) ∧
    (∃ inner a b r, CfgInner "cfg(a b)".toList inner ∧ ParseError.display ⟨inner, ⟨a, b⟩, r⟩ =
        inner ++ "\n".toList ++ List.replicate a ' ' ++ marks a b r ++ " ".toList ++ reasonText r) ∧
    ∃ pre mid post, "a b".toList = pre ++ mid ++ post ∧ 2 = pre.length ∧ 3 = (pre ++ mid).length := by
  have h : Expression.parse true "cfg(a b)".toList = _ := parse_of_errorOf
    (pe := ⟨"a b".toList, ⟨2, 3⟩, .unexpected ["=".toList, ",".toList, ")".toList]⟩) (by decide +kernel)
  obtain ⟨i, a, b, r, h1, -, h3⟩ := C71_error_partial _ _ _ h
  obtain ⟨i', a', b', r', h1', -, h3'⟩ := C71_message _ _ _ h
  exact ⟨h, ⟨i, a, b, r, h1, h3⟩, ⟨i', a', b', r', h1', h3'⟩, C71_marks _ _ _ h (by decide)⟩

end CC
