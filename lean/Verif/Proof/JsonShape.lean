import Verif.Proof.Json
import Verif.Proof.Meaning
/-!
# Characters and shape of JSON output
-/

namespace Verif

/-! ## Characters -/

/-- Characters that can be embedded in HTML and JavaScript; the only control
character is the newline. -/
def SafeChar (c : Char) : Prop :=
  c ≠ '<' ∧ c ≠ '>' ∧ c ≠ '&' ∧ c.toNat ≠ 0x2028 ∧ c.toNat ≠ 0x2029 ∧ (c.toNat < 32 → c = '\n')

instance (c : Char) : Decidable (SafeChar c) := by unfold SafeChar; infer_instance

def Safe (s : Str) : Prop := ∀ c ∈ s, SafeChar c

theorem Safe.nil : Safe [] := by intro c h; cases h
theorem Safe.cons {c : Char} {s : Str} (hc : SafeChar c) (hs : Safe s) : Safe (c :: s) := by
  intro d hd
  rcases List.mem_cons.1 hd with rfl | hd
  · exact hc
  · exact hs d hd
theorem Safe.append {s t : Str} (hs : Safe s) (ht : Safe t) : Safe (s ++ t) := by
  intro c hc
  rcases List.mem_append.1 hc with h | h
  · exact hs c h
  · exact ht c h

theorem safe_hexDigit (n : Nat) (h : n < 16) : SafeChar (hexDigit n) := by
  have : ∀ n : Fin 16, SafeChar (hexDigit n.1) := by decide
  exact this ⟨n, h⟩

theorem safe_hex4 (n : Nat) : Safe (hex4 n) := by
  unfold hex4
  exact .cons (safe_hexDigit _ (Nat.mod_lt _ (by decide))) (.cons (safe_hexDigit _ (Nat.mod_lt _ (by decide)))
    (.cons (safe_hexDigit _ (Nat.mod_lt _ (by decide))) (.cons (safe_hexDigit _ (Nat.mod_lt _ (by decide))) .nil)))

theorem safe_pair {a b : Char} (ha : SafeChar a) (hb : SafeChar b) : Safe [a, b] :=
  .cons ha (.cons hb .nil)

theorem safe_escChar (sh : Bool) (c : Char) : Safe (escChar sh c) := by
  unfold escChar
  split
  · exact safe_pair (by decide) (by decide)
  split
  · exact safe_pair (by decide) (by decide)
  split
  · exact safe_pair (by decide) (by decide)
  split
  · exact safe_pair (by decide) (by decide)
  split
  · exact safe_pair (by decide) (by decide)
  split
  · exact safe_pair (by decide) (by decide)
  split
  · exact safe_pair (by decide) (by decide)
  split
  · exact .append (safe_pair (by decide) (by decide)) (safe_hex4 _)
  · rename_i h
    simp only [Bool.or_eq_true, decide_eq_true_eq, not_or] at h
    refine .cons ⟨?_, ?_, ?_, ?_, ?_, ?_⟩ .nil
    · exact h.1.1.1.1.2
    · exact h.1.1.1.2
    · exact h.1.1.2
    · exact h.1.2
    · exact h.2
    · intro hc; exact absurd hc h.1.1.1.1.1

theorem safe_quote (sh : Bool) (s : Str) : Safe (quote sh s) := by
  refine .cons (by decide) (.append ?_ (.cons (by decide) .nil))
  intro c hc
  obtain ⟨d, _, h⟩ := List.mem_flatMap.1 hc
  exact safe_escChar sh d c h

theorem safe_newline (d : Nat) : Safe (newline d) := by
  refine .cons (by decide) ?_
  intro c hc
  rw [List.eq_of_mem_replicate hc]; decide

mutual
theorem safe_pretty (sh : Bool) (d : Nat) (j : J) (h : j.noNum) : Safe (j.pretty sh d) := by
  match j, h with
  | .null, _ => rw [J.pretty]; unfold Safe; decide
  | .bool true, _ => rw [J.pretty]; unfold Safe; decide
  | .bool false, _ => rw [J.pretty]; unfold Safe; decide
  | .str s, _ => exact safe_quote sh s
  | .arr [], _ => rw [J.pretty]; unfold Safe; decide
  | .arr (x :: xs), h =>
    rw [J.pretty]
    exact .cons (by decide) (.append (safe_newline _) (.append (safe_pretty sh _ x h.1)
      (.append (safe_rest sh _ xs h.2) (.append (safe_newline _) (.cons (by decide) .nil)))))
  | .obj [], _ => rw [J.pretty]; unfold Safe; decide
  | .obj ((k, x) :: xs), h =>
    rw [J.pretty]
    exact .cons (by decide) (.append (safe_newline _) (.append (safe_quote _ _) (.cons (by decide)
      (.cons (by decide) (.append (safe_pretty sh _ x h.1)
      (.append (safe_members sh _ xs h.2) (.append (safe_newline _) (.cons (by decide) .nil))))))))
theorem safe_rest (sh : Bool) (d : Nat) (l : List J) (h : J.noNumList l) :
    Safe (J.prettyRest sh d l) := by
  match l, h with
  | [], _ => exact .nil
  | x :: xs, h =>
    rw [J.prettyRest]
    exact .cons (by decide) (.append (safe_newline _) (.append (safe_pretty sh _ x h.1)
      (safe_rest sh _ xs h.2)))
theorem safe_members (sh : Bool) (d : Nat) (l : List (Str × J)) (h : J.noNumMembers l) :
    Safe (J.prettyMembers sh d l) := by
  match l, h with
  | [], _ => exact .nil
  | (k, x) :: xs, h =>
    rw [J.prettyMembers]
    exact .cons (by decide) (.append (safe_newline _) (.append (safe_quote _ _) (.cons (by decide)
      (.cons (by decide) (.append (safe_pretty sh _ x h.1) (safe_members sh _ xs h.2))))))
end

theorem safe_marshal (sh : Bool) (j : J) (h : j.noNum) : Safe (marshalIndent sh j) := by
  rw [marshal_pretty sh j h]; exact safe_pretty sh 0 j h

/-! ## Schemas of programs have no empty lists -/

theorem noEmpty_listed {α : Type} (l : List α) : Slice.noEmpty (listed l) = listed l := by
  cases l <;> rfl

theorem noEmpty_cons {α : Type} (a : α) (l : List α) :
    Slice.noEmpty (some (a :: l)) = some (a :: l) := rfl

theorem map_listed {α β : Type} (f : α → β) (l : List α) :
    (listed l).map (·.map f) = listed (l.map f) := by cases l <;> rfl

theorem norm_column (c : ColDecl) : c.denote.norm = c.denote := by
  simp [ColDecl.denote, Column.norm, noEmpty_listed]

theorem norm_table (t : TableDecl) : t.denote.norm = t.denote := by
  simp only [TableDecl.denote, Table.norm, noEmpty_listed]
  congr 1
  simp only [Option.map_some, List.map_map]
  have : (t.columns.list.map (Column.norm ∘ ColDecl.denote)) = t.columns.list.map ColDecl.denote := by
    apply List.map_congr_left; intro c _; exact norm_column c
  rw [this]; rfl

theorem norm_action (a : ActionDecl) : a.denote.norm = a.denote := by
  simp only [ActionDecl.denote, Action.norm, noEmpty_listed]
  rfl

theorem norm_init (b : NE Stmt) : (initAction b).norm = initAction b := rfl

theorem norm_denote (p : Program) : p.denote.norm = p.denote := by
  simp only [Program.denote, Schema.norm, noEmpty_listed, map_listed]
  congr 2
  · rw [List.map_map]; apply List.map_congr_left; intro c _; exact norm_table c
  · rw [List.map_append, List.map_map, List.map_map]
    congr 1
    apply List.map_congr_left; intro c _; exact norm_action c

theorem noEmptyLists_iff (l : List J) : J.noEmptyLists l ↔ ∀ x ∈ l, x.noEmptyList := by
  induction l with
  | nil => simp [J.noEmptyLists]
  | cons x l ih => simp [J.noEmptyLists, ih]

theorem noEmptyMembers_iff (l : List (Str × J)) :
    J.noEmptyMembers l ↔ ∀ x ∈ l, x.2.noEmptyList := by
  induction l with
  | nil => simp [J.noEmptyMembers]
  | cons x l ih => obtain ⟨k, x⟩ := x; simp [J.noEmptyMembers, ih]

/-! ## Members -/

theorem member_listed {α β : Type} (key : String) (g : β → J) (f : α → β) (l : List α) :
    (listed (l.map f)).member key g =
      if l = [] then [] else [(key.toList, .arr (l.map fun x => g (f x)))] := by
  cases l with
  | nil => rfl
  | cons a l => simp [listed, Slice.member, Slice.elems, Slice.toJ]

theorem toJ_listed {α β : Type} (g : β → J) (f : α → β) (l : List α) :
    (listed (l.map f)).toJ g = if l = [] then .null else .arr (l.map fun x => g (f x)) := by
  cases l with
  | nil => rfl
  | cons a l => simp [listed, Slice.toJ]

theorem items_of {j : J} {key : String} {l : List J} (h : j.get key = some (.arr l)) :
    j.items key = l := by simp [J.items, h]

theorem items_member {α : Type} (f : α → J) (key : String) (j : J) (s : Slice α)
    (hk : j.get key = (s.member key f).lookup key.toList) :
    j.items key = s.elems.map f := by
  unfold Slice.member at hk
  cases s with
  | none => simp [J.items, hk, Slice.elems]
  | some l => cases l <;> simp [J.items, hk, Slice.elems, Slice.toJ]

theorem items_tables (s : Schema) : s.toJ.items "tables" = s.tables.elems.map Table.toJ := by
  apply items_member
  simp only [Schema.toJ, J.get, List.cons_append, List.nil_append, strMember, List.append_assoc]
  rw [lookup_skip (by decide), lookup_skip (by decide), member_same]
  rw [member_skip (by decide), member_other (by decide)]

theorem items_actions (s : Schema) : s.toJ.items "actions" = s.actions.elems.map Action.toJ := by
  apply items_member
  simp only [Schema.toJ, J.get, List.cons_append, List.nil_append, strMember, List.append_assoc]
  rw [lookup_skip (by decide), lookup_skip (by decide), member_skip (by decide), member_same]
  rw [member_other (by decide)]

theorem items_extensions (s : Schema) :
    s.toJ.items "extensions" = s.extensions.elems.map Extension.toJ := by
  apply items_member
  simp only [Schema.toJ, J.get, List.cons_append, List.nil_append, strMember, List.append_assoc]
  rw [lookup_skip (by decide), lookup_skip (by decide), member_skip (by decide),
    member_skip (by decide)]

theorem items_columns (t : Table) : t.toJ.items "columns" = t.columns.elems.map Column.toJ := by
  apply items_member
  simp only [Table.toJ, J.get, List.cons_append, strMember, List.append_assoc]
  rw [lookup_skip (by decide), member_same]
  rw [member_skip (by decide), member_other (by decide)]

theorem items_indexes (t : Table) : t.toJ.items "indexes" = t.indexes.elems.map Index.toJ := by
  apply items_member
  simp only [Table.toJ, J.get, List.cons_append, strMember, List.append_assoc]
  rw [lookup_skip (by decide), member_skip (by decide), member_same]
  rw [member_other (by decide)]

theorem items_fks (t : Table) :
    t.toJ.items "foreign_keys" = t.foreignKeys.elems.map ForeignKey.toJ := by
  apply items_member
  simp only [Table.toJ, J.get, List.cons_append, strMember, List.append_assoc]
  rw [lookup_skip (by decide), member_skip (by decide), member_skip (by decide)]

theorem get_inputs (a : Action) : a.toJ.get "inputs" = some (a.inputs.toJ .str) := by
  simp only [Action.toJ, J.get, List.cons_append, List.nil_append, strMember, List.append_assoc]
  rw [lookup_skip (by decide), member_skip (by decide), lookup_here]

theorem get_auxiliaries (a : Action) :
    a.toJ.get "auxiliaries" = some (a.auxiliaries.toJ .str) := by
  simp only [Action.toJ, J.get, List.cons_append, List.nil_append, strMember, List.append_assoc]
  rw [lookup_skip (by decide), member_skip (by decide), lookup_skip (by decide),
    lookup_skip (by decide), lookup_skip (by decide), lookup_here]

/-- The keys of an optional member. -/
theorem keys_member {α : Type} (key : String) (f : α → J) (s : Slice α) :
    (s.member key f).map (·.1) = ifAny s.elems key := by
  unfold Slice.member ifAny
  cases h : s.elems <;> rfl

theorem ifAny_map {α β : Type} (f : α → β) (l : List α) (key : String) :
    ifAny (l.map f) key = ifAny l key := by cases l <;> rfl

theorem ifAny_append {α : Type} (l m : List α) (key : String) :
    ifAny (l ++ m) key = if l = [] ∧ m = [] then [] else [key.toList] := by
  cases l <;> cases m <;> rfl

/-! ## No empty lists in the JSON of a program -/

theorem ne_obj {fs : List (Str × J)} (h : ∀ x ∈ fs, x.2.noEmptyList) : (J.obj fs).noEmptyList :=
  (noEmptyMembers_iff fs).2 h

theorem ne_member {α : Type} {f : α → J} {key : String} {s : Slice α}
    (h : ∀ a ∈ s.elems, (f a).noEmptyList) : ∀ x ∈ s.member key f, x.2.noEmptyList := by
  unfold Slice.member
  split
  · intro x hx; cases hx
  · rename_i hc
    cases s with
    | none => exact absurd rfl hc
    | some l =>
      simp only [List.mem_singleton, forall_eq, Slice.toJ, J.noEmptyList]
      refine ⟨?_, (noEmptyLists_iff _).2 ?_⟩
      · intro h0; apply hc; simpa [Slice.elems] using h0
      · intro x hx
        obtain ⟨a, ha, rfl⟩ := List.mem_map.1 hx
        exact h a ha

theorem ne_toJ {α : Type} {f : α → J} {s : Slice α} (hs : s ≠ some [])
    (h : ∀ a ∈ s.elems, (f a).noEmptyList) : (s.toJ f).noEmptyList := by
  cases s with
  | none => trivial
  | some l =>
    refine ⟨?_, (noEmptyLists_iff _).2 ?_⟩
    · intro h0; apply hs; simpa using h0
    · intro x hx
      obtain ⟨a, ha, rfl⟩ := List.mem_map.1 hx
      exact h a ha

theorem listed_ne {α : Type} (l : List α) : listed l ≠ some [] := by
  cases l <;> simp [listed]

theorem ne_str (s : Str) : (J.str s).noEmptyList := trivial

theorem ne_append {l m : List (Str × J)} (hl : ∀ x ∈ l, x.2.noEmptyList)
    (hm : ∀ x ∈ m, x.2.noEmptyList) : ∀ x ∈ l ++ m, x.2.noEmptyList := by
  intro x hx
  rcases List.mem_append.1 hx with h | h
  · exact hl x h
  · exact hm x h

theorem ne_cons {x : Str × J} {m : List (Str × J)} (hl : x.2.noEmptyList)
    (hm : ∀ x ∈ m, x.2.noEmptyList) : ∀ y ∈ x :: m, y.2.noEmptyList := by
  intro y hx
  rcases List.mem_cons.1 hx with rfl | h
  · exact hl
  · exact hm y h

theorem ne_nil : ∀ x ∈ ([] : List (Str × J)), x.2.noEmptyList := by intro x hx; cases hx

theorem ne_ext (e : ExtDecl) : e.denote.toJ.noEmptyList := by
  refine ne_obj (ne_cons trivial (ne_cons (ne_toJ ?_ ?_) (ne_cons trivial ne_nil)))
  · cases h : e.config <;> simp [ExtDecl.denote, h, NE.list]
  · intro a _; exact ne_obj (ne_cons trivial (ne_cons trivial ne_nil))

theorem ne_attr (a : Attribute) : a.toJ.noEmptyList := by
  refine ne_obj (ne_cons trivial ?_)
  cases a.value with
  | none => exact ne_nil
  | some v => exact ne_cons trivial ne_nil

theorem ne_column (c : Column) : c.toJ.noEmptyList :=
  ne_obj (ne_append (ne_cons trivial (ne_cons trivial ne_nil)) (ne_member fun a _ => ne_attr a))

theorem ne_index (i : IdxDecl) : i.denote.toJ.noEmptyList := by
  refine ne_obj (ne_append (ne_cons trivial (ne_cons (ne_toJ (s := i.denote.columns) ?_ fun a _ => ne_str a) ne_nil)) ?_)
  · simp [IdxDecl.denote, NE.list]
  · split
    · exact ne_nil
    · exact ne_cons trivial ne_nil

theorem ne_fk (f : FkDecl) : f.denote.toJ.noEmptyList := by
  refine ne_obj (ne_cons (ne_toJ (s := f.denote.childKeys) ?_ fun a _ => ne_str a)
    (ne_cons (ne_toJ (s := f.denote.parentKeys) ?_ fun a _ => ne_str a)
    (ne_cons trivial (ne_cons (ne_toJ (listed_ne _) ?_) ne_nil))))
  · simp [FkDecl.denote, NE.list]
  · simp [FkDecl.denote, NE.list]
  · intro a _; exact ne_obj (ne_cons trivial (ne_cons trivial ne_nil))

theorem ne_table (t : TableDecl) : t.denote.toJ.noEmptyList := by
  refine ne_obj (ne_cons trivial (ne_append (ne_append (ne_member fun c _ => ne_column c)
    (ne_member ?_)) (ne_member ?_)))
  · intro a ha
    simp only [TableDecl.denote, listed_elems] at ha
    obtain ⟨i, _, rfl⟩ := List.mem_map.1 ha
    exact ne_index i
  · intro a ha
    simp only [TableDecl.denote, listed_elems] at ha
    obtain ⟨i, _, rfl⟩ := List.mem_map.1 ha
    exact ne_fk i

theorem ne_action (a : Action) (hi : a.inputs ≠ some []) (hx : a.auxiliaries ≠ some []) :
    a.toJ.noEmptyList :=
  ne_obj (ne_cons trivial (ne_append (ne_append (ne_member fun a _ => ne_str a)
    (ne_cons (ne_toJ hi fun a _ => ne_str a) (ne_cons trivial (ne_cons trivial
      (ne_cons (ne_toJ hx fun a _ => ne_str a) ne_nil))))) (ne_member fun a _ => ne_str a)))

theorem ne_schema (p : Program) : p.denote.toJ.noEmptyList := by
  refine ne_obj (ne_append (ne_append (ne_append (ne_cons trivial (ne_cons trivial ne_nil))
    (ne_member ?_)) (ne_member ?_)) (ne_member ?_))
  · intro a ha
    rw [p.denote_tables] at ha
    obtain ⟨i, _, rfl⟩ := List.mem_map.1 ha
    exact ne_table i
  · intro a ha
    rw [p.denote_actions] at ha
    rcases List.mem_append.1 ha with ha | ha
    · obtain ⟨i, _, rfl⟩ := List.mem_map.1 ha
      apply ne_action
      · exact listed_ne _
      · show (if _ then _ else _) ≠ _
        split <;> simp
    · obtain ⟨i, _, rfl⟩ := List.mem_map.1 ha
      exact ne_action _ (by simp [initAction]) (by simp [initAction])
  · intro a ha
    rw [p.denote_exts] at ha
    obtain ⟨i, _, rfl⟩ := List.mem_map.1 ha
    exact ne_ext i

end Verif
