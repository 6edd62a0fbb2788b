import Verif.Spec.JsonLayout
import Verif.Props.Json
/-!
# C50: the layout of the JSON output
-/

namespace Verif

theorem fourDigits_small : ∀ n, n < 64 → fourDigits n = hex4 n := by decide +kernel

theorem charText_eq (sh : Bool) (c : Char) : escChar sh c = charText sh c := by
  have hc : ∀ n : Nat, c.toNat = n → c = Char.ofNat n := by
    intro n h; rw [← h, Char.ofNat_toNat]
  unfold escChar charText shortForms
  by_cases h₁ : c = '"'
  · subst h₁; rfl
  by_cases h₂ : c = '\\'
  · subst h₂; rfl
  by_cases h₃ : c = '\n'
  · subst h₃; rfl
  by_cases h₄ : c = '\r'
  · subst h₄; rfl
  by_cases h₅ : c = '\t'
  · subst h₅; rfl
  by_cases h₆ : sh = true ∧ c.toNat = 8
  · obtain ⟨rfl, h⟩ := h₆
    obtain rfl := hc 8 h; rfl
  by_cases h₇ : sh = true ∧ c.toNat = 12
  · obtain ⟨rfl, h⟩ := h₇
    obtain rfl := hc 12 h; rfl
  have hb : ∀ a b : Char, a ≠ b → (a == b) = false := by intro a b h; simpa using h
  have hl : List.lookup c ([('"', '"'), ('\\', '\\'), ('\n', 'n'), ('\r', 'r'), ('\t', 't')] ++
      if sh = true then [(Char.ofNat 8, 'b'), (Char.ofNat 12, 'f')] else []) = none := by
    have h8 : sh = true → c ≠ Char.ofNat 8 := by
      rintro rfl rfl; exact h₆ ⟨rfl, rfl⟩
    have h12 : sh = true → c ≠ Char.ofNat 12 := by
      rintro rfl rfl; exact h₇ ⟨rfl, rfl⟩
    cases sh with
    | false =>
      simp only [List.cons_append, List.nil_append, List.lookup, hb _ _ h₁, hb _ _ h₂, hb _ _ h₃,
        hb _ _ h₄, hb _ _ h₅, Bool.false_eq_true, if_false]
    | true =>
      simp only [List.cons_append, List.nil_append, List.lookup, hb _ _ h₁, hb _ _ h₂, hb _ _ h₃,
        hb _ _ h₄, hb _ _ h₅, if_true, hb _ _ (h8 rfl), hb _ _ (h12 rfl)]
  rw [hl, if_neg h₁, if_neg h₂, if_neg h₃, if_neg h₄, if_neg h₅, if_neg (by simpa using h₆),
    if_neg (by simpa using h₇)]
  have hcond : (decide (c.toNat < 32) || decide (c = '<') || decide (c = '>') || decide (c = '&') ||
      decide (c.toNat = 0x2028) || decide (c.toNat = 0x2029)) = byNumber c := by
    have e1 : c.toNat = 0x2028 ↔ c = Char.ofNat 0x2028 :=
      ⟨hc _, fun h => by rw [h]; rfl⟩
    have e2 : c.toNat = 0x2029 ↔ c = Char.ofNat 0x2029 :=
      ⟨hc _, fun h => by rw [h]; rfl⟩
    unfold byNumber
    rw [Bool.eq_iff_iff]
    simp only [Bool.or_eq_true, decide_eq_true_eq, List.mem_cons, List.not_mem_nil, or_false, e1, e2]
    simp only [or_assoc]
  rw [hcond]
  by_cases hn : byNumber c = true
  · rw [if_pos hn]
    simp only [hn, if_true]
    have : fourDigits c.toNat = hex4 c.toNat := by
      unfold byNumber at hn
      simp only [Bool.or_eq_true, decide_eq_true_eq, List.mem_cons, List.not_mem_nil, or_false] at hn
      rcases hn with h | rfl | rfl | rfl | rfl | rfl
      · exact fourDigits_small _ (by omega)
      all_goals decide +kernel
    rw [this]; rfl
  · rw [if_neg hn]
    simp only [hn]
    rfl

theorem stringText_eq (sh : Bool) (s : Str) : quote sh s = stringText sh s := by
  unfold quote stringText
  rw [← List.flatMap_def]
  have : s.flatMap (escChar sh) = s.flatMap (charText sh) := by
    congr 1; funext c; exact charText_eq sh c
  rw [this]; rfl

/-- Lines, each but the first after a line break and the indentation. -/
def joined (d : Nat) : List Str → Str
  | [] => []
  | [l] => l
  | l :: ls => l ++ (newline d ++ joined d ls)

theorem joined_cons (d : Nat) (l : Str) {ls : List Str} (h : ls ≠ []) :
    joined d (l :: ls) = l ++ (newline d ++ joined d ls) := by
  cases ls with
  | nil => exact absurd rfl h
  | cons => rfl

theorem joined_append (d : Nat) {a b : List Str} (ha : a ≠ []) (hb : b ≠ []) :
    joined d (a ++ b) = joined d a ++ (newline d ++ joined d b) := by
  induction a with
  | nil => exact absurd rfl ha
  | cons x a ih =>
    cases a with
    | nil => rw [List.singleton_append, joined_cons d x hb]; rfl
    | cons y a =>
      rw [List.cons_append, joined_cons d x (by simp), ih (by simp), joined_cons d x (by simp)]
      simp only [List.append_assoc]

theorem newline_succ (d : Nat) : newline (d + 1) = newline d ++ "  ".toList := by
  unfold newline
  have : 2 * (d + 1) = 2 * d + 2 := by omega
  rw [this, ← List.replicate_append_replicate]
  rfl

theorem joined_indented (d : Nat) {ls : List Str} (h : ls ≠ []) :
    newline d ++ joined d (ls.map indented) = newline (d + 1) ++ joined (d + 1) ls := by
  induction ls with
  | nil => exact absurd rfl h
  | cons l ls ih =>
    cases ls with
    | nil =>
      show newline d ++ ("  ".toList ++ l) = newline (d + 1) ++ l
      rw [newline_succ, List.append_assoc]
    | cons m ls =>
      rw [List.map_cons, joined_cons d _ (by simp), joined_cons (d + 1) _ (by simp), ← ih (by simp)]
      rw [newline_succ]
      simp only [indented, List.append_assoc]

theorem joined_comma (d : Nat) {ls : List Str} (h : ls ≠ []) :
    joined d (withComma ls) = joined d ls ++ [','] ∧ withComma ls ≠ [] := by
  induction ls with
  | nil => exact absurd rfl h
  | cons l ls ih =>
    cases ls with
    | nil => exact ⟨rfl, by simp [withComma]⟩
    | cons m ls =>
      obtain ⟨h₁, h₂⟩ := ih (by simp)
      refine ⟨?_, by simp [withComma]⟩
      show joined d (l :: withComma (m :: ls)) = _
      rw [joined_cons d l h₂, h₁, joined_cons d l (ls := m :: ls) (by simp)]
      simp only [List.append_assoc]

theorem joined_labelled (d : Nat) (t : Str) {ls : List Str} (h : ls ≠ []) :
    joined d (labelled t ls) = t ++ joined d ls := by
  cases ls with
  | nil => exact absurd rfl h
  | cons l ls =>
    cases ls with
    | nil => rfl
    | cons m ls =>
      show joined d ((t ++ l) :: m :: ls) = _
      rw [joined_cons d (t ++ l) (ls := m :: ls) (by simp), joined_cons d l (ls := m :: ls) (by simp),
        List.append_assoc]

theorem labelled_ne {t : Str} {ls : List Str} (h : ls ≠ []) : labelled t ls ≠ [] := by
  cases ls with
  | nil => exact absurd rfl h
  | cons l ls => simp [labelled]

theorem lines_ne (sh : Bool) (j : J) : j.lines sh ≠ [] := by
  cases j <;> simp only [J.lines] <;> first | (split <;> simp) | simp

theorem itemLines_ne {i : List Str} {is : List (List Str)} (h : i ≠ []) : itemLines (i :: is) ≠ [] := by
  cases is with
  | nil => simp [itemLines, h]
  | cons => simp [itemLines, (joined_comma 0 h).2]

theorem itemLines_cons (d : Nat) {i i' : List Str} {is : List (List Str)} (h : i ≠ []) (h' : i' ≠ []) :
    newline d ++ joined d (itemLines (i :: i' :: is)) =
      newline (d + 1) ++ (joined (d + 1) i ++ (',' :: (newline d ++ joined d (itemLines (i' :: is))))) := by
  obtain ⟨h₁, h₂⟩ := joined_comma (d + 1) h
  have h₃ := itemLines_ne (is := is) h'
  show newline d ++ joined d ((withComma i).map indented ++ itemLines (i' :: is)) = _
  rw [joined_append d (by simpa using h₂) h₃, ← List.append_assoc, joined_indented d h₂, h₁]
  simp only [List.append_assoc, List.cons_append, List.nil_append]

theorem itemLines_one (d : Nat) {i : List Str} (h : i ≠ []) :
    newline d ++ joined d (itemLines [i]) = newline (d + 1) ++ joined (d + 1) i :=
  joined_indented d h

theorem wrapped (d : Nat) (a b : Str) {ls : List Str} (h : ls ≠ []) :
    joined d ([a] ++ ls ++ [b]) = a ++ (newline d ++ joined d ls ++ (newline d ++ b)) := by
  rw [joined_append d (by simp) (by simp), List.singleton_append, joined_cons d a h]
  simp only [List.append_assoc]
  rfl

mutual
theorem pretty_lines (sh : Bool) (d : Nat) (j : J) : j.pretty sh d = joined d (j.lines sh) := by
  match j with
  | .null => rfl
  | .bool true => rfl
  | .bool false => rfl
  | .num t => rfl
  | .str s => exact stringText_eq sh s
  | .arr [] => rfl
  | .arr (x :: xs) =>
    have h₁ := pretty_rest sh d x xs
    have h₂ : itemLines (J.linesOfItems sh (x :: xs)) ≠ [] := itemLines_ne (lines_ne sh x)
    show _ = joined d (["[".toList] ++ itemLines (J.linesOfItems sh (x :: xs)) ++ ["]".toList])
    rw [wrapped d _ _ h₂, h₁, J.pretty]
    simp only [List.append_assoc]
    rfl
  | .obj [] => rfl
  | .obj ((k, x) :: xs) =>
    have h₁ := pretty_members sh d k x xs
    have h₂ : itemLines (J.linesOfMembers sh ((k, x) :: xs)) ≠ [] :=
      itemLines_ne (labelled_ne (lines_ne sh x))
    show _ = joined d (["{".toList] ++ itemLines (J.linesOfMembers sh ((k, x) :: xs)) ++ ["}".toList])
    rw [wrapped d _ _ h₂, h₁, J.pretty]
    simp only [List.append_assoc, List.cons_append]
    rfl
termination_by sizeOf j
decreasing_by all_goals (simp_wf; omega)
theorem pretty_rest (sh : Bool) (d : Nat) (x : J) (xs : List J) :
    newline d ++ joined d (itemLines (J.linesOfItems sh (x :: xs))) =
      newline (d + 1) ++ (x.pretty sh (d + 1) ++ J.prettyRest sh (d + 1) xs) := by
  match xs with
  | [] =>
    show newline d ++ joined d (itemLines [x.lines sh]) = _
    rw [itemLines_one d (lines_ne sh x), ← pretty_lines sh (d + 1) x, J.prettyRest, List.append_nil]
  | y :: ys =>
    show newline d ++ joined d (itemLines (x.lines sh :: y.lines sh :: J.linesOfItems sh ys)) = _
    rw [itemLines_cons d (lines_ne sh x) (lines_ne sh y), ← pretty_lines sh (d + 1) x]
    have := pretty_rest sh d y ys
    rw [J.linesOfItems] at this
    rw [this, J.prettyRest]
termination_by sizeOf x + sizeOf xs + 1
decreasing_by all_goals (simp_wf; omega)
theorem pretty_members (sh : Bool) (d : Nat) (k : Str) (x : J) (xs : List (Str × J)) :
    newline d ++ joined d (itemLines (J.linesOfMembers sh ((k, x) :: xs))) =
      newline (d + 1) ++ (quote sh k ++ ':' :: ' ' :: (x.pretty sh (d + 1) ++
        J.prettyMembers sh (d + 1) xs)) := by
  have hk : ∀ (k : Str) (r : Str), (stringText sh k ++ ": ".toList) ++ r = quote sh k ++ ':' :: ' ' :: r := by
    intro k r
    rw [stringText_eq, List.append_assoc]; rfl
  match xs with
  | [] =>
    show newline d ++ joined d (itemLines [labelled _ (x.lines sh)]) = _
    rw [itemLines_one d (labelled_ne (lines_ne sh x)), joined_labelled _ _ (lines_ne sh x),
      ← pretty_lines sh (d + 1) x, J.prettyMembers, List.append_nil, hk]
  | (k', y) :: ys =>
    show newline d ++ joined d (itemLines (labelled _ (x.lines sh) :: labelled _ (y.lines sh) ::
      J.linesOfMembers sh ys)) = _
    rw [itemLines_cons d (labelled_ne (lines_ne sh x)) (labelled_ne (lines_ne sh y)),
      joined_labelled _ _ (lines_ne sh x), ← pretty_lines sh (d + 1) x]
    have := pretty_members sh d k' y ys
    rw [J.linesOfMembers] at this
    rw [this, J.prettyMembers, List.append_assoc, hk]
termination_by sizeOf x + sizeOf xs + 1
decreasing_by all_goals (simp_wf; omega)
end

theorem joined_text (ls : List Str) : joined 0 ls = textOfLines ls := by
  unfold textOfLines
  induction ls with
  | nil => rfl
  | cons l ls ih =>
    cases ls with
    | nil => simp [joined, List.intercalate]
    | cons m ls =>
      rw [joined_cons 0 l (by simp), ih]
      simp [List.intercalate, newline]

/-- The output for a value without numbers. -/
theorem marshal_lines (sh : Bool) (j : J) (h : j.noNum) :
    marshalIndent sh j = textOfLines (j.lines sh) := by
  rw [marshal_pretty sh j h, pretty_lines, joined_text]

/-- C50. The JSON text of a schema is exactly the layout, in lines, of the
value that it reads as. -/
theorem C50_layout (sh : Bool) (s : Schema) :
    ∃ j, readJson (s.toJSON sh) = some j ∧ s.toJSON sh = textOfLines (j.lines sh) :=
  ⟨s.toJ, readJson_marshal sh _ (noNum_schema s), marshal_lines sh _ (noNum_schema s)⟩

/-- C50 for the other nodes. -/
theorem C50_nodes (sh : Bool) :
    (∀ x : Extension, ∃ j, readJson (x.toJSON sh) = some j ∧ x.toJSON sh = textOfLines (j.lines sh)) ∧
    (∀ x : Table, ∃ j, readJson (x.toJSON sh) = some j ∧ x.toJSON sh = textOfLines (j.lines sh)) ∧
    (∀ x : Column, ∃ j, readJson (x.toJSON sh) = some j ∧ x.toJSON sh = textOfLines (j.lines sh)) ∧
    (∀ x : Attribute, ∃ j, readJson (x.toJSON sh) = some j ∧ x.toJSON sh = textOfLines (j.lines sh)) ∧
    (∀ x : Index, ∃ j, readJson (x.toJSON sh) = some j ∧ x.toJSON sh = textOfLines (j.lines sh)) ∧
    (∀ x : ForeignKey, ∃ j, readJson (x.toJSON sh) = some j ∧ x.toJSON sh = textOfLines (j.lines sh)) ∧
    (∀ x : Action, ∃ j, readJson (x.toJSON sh) = some j ∧ x.toJSON sh = textOfLines (j.lines sh)) :=
  ⟨fun x => ⟨x.toJ, readJson_marshal sh _ (noNum_ext x), marshal_lines sh _ (noNum_ext x)⟩,
   fun x => ⟨x.toJ, readJson_marshal sh _ (noNum_table x), marshal_lines sh _ (noNum_table x)⟩,
   fun x => ⟨x.toJ, readJson_marshal sh _ (noNum_column x), marshal_lines sh _ (noNum_column x)⟩,
   fun x => ⟨x.toJ, readJson_marshal sh _ (noNum_attr x), marshal_lines sh _ (noNum_attr x)⟩,
   fun x => ⟨x.toJ, readJson_marshal sh _ (noNum_index x), marshal_lines sh _ (noNum_index x)⟩,
   fun x => ⟨x.toJ, readJson_marshal sh _ (noNum_fk x), marshal_lines sh _ (noNum_fk x)⟩,
   fun x => ⟨x.toJ, readJson_marshal sh _ (noNum_action x), marshal_lines sh _ (noNum_action x)⟩⟩

/-- The lines of a value with a list, an empty list, an object, and strings
with all kinds of characters. -/
example : (J.obj [("a<".toList, .arr [.str "q\"".toList, .arr [], .null]), ("b".toList, .obj [])]).lines
    false = ["{".toList, "  \"a\\u003c\": [".toList, "    \"q\\\"\",".toList, "    [],".toList,
      "    null".toList, "  ],".toList, "  \"b\": {}".toList, "}".toList] := by decide +kernel

end Verif
