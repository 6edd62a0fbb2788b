import Verif.Proof.JsonShape
import Verif.Props.SampleText
/-!
# C31–C34: JSON output

`readJson` is a JSON reader after RFC 8259 and `readSchema` reads a schema from
a JSON value (Spec/Json.lean); both are written without reference to the
encoder.  `sh` says whether the Go version writes backspace and form feed as
`\\b` and `\\f`.
-/

namespace Verif

/-- C31. `ToJSON` of any schema is well-formed JSON, and the schema read from
it is the same up to lists that are empty (JSON leaves those out). -/
theorem C31_faithful (sh : Bool) (s : Schema) :
    (readJson (s.toJSON sh)).bind readSchema = some s.norm := by
  unfold Schema.toJSON
  rw [readJson_marshal sh _ (noNum_schema s)]
  exact read_schema s

/-- C31. For a schema that `Parse` returned, what is read is exactly the
schema. -/
theorem C31_parsed (w : World) (s : Str) (sch : Schema) (h : Accepts w s sch) (sh : Bool) :
    (readJson (sch.toJSON sh)).bind readSchema = some sch := by
  obtain ⟨p, hp, hf, rfl, _⟩ := h.exists_program
  rw [C31_faithful, norm_denote]

/-- C31 for the `ToJSON` methods of the other schema nodes. -/
theorem C31_nodes (sh : Bool) :
    (∀ x : Extension, (readJson (x.toJSON sh)).bind readExtension = some x) ∧
    (∀ x : Table, (readJson (x.toJSON sh)).bind readTable = some x.norm) ∧
    (∀ x : Column, (readJson (x.toJSON sh)).bind readColumn = some x.norm) ∧
    (∀ x : Attribute, (readJson (x.toJSON sh)).bind readAttribute = some x) ∧
    (∀ x : Index, (readJson (x.toJSON sh)).bind readIndex = some x) ∧
    (∀ x : ForeignKey, (readJson (x.toJSON sh)).bind readForeignKey = some x) ∧
    (∀ x : Action, (readJson (x.toJSON sh)).bind readAction = some x.norm) := by
  refine ⟨?_, ?_, ?_, ?_, ?_, ?_, ?_⟩ <;> intro x
  · unfold Extension.toJSON; rw [readJson_marshal sh _ (noNum_ext x)]; exact read_ext x
  · unfold Table.toJSON; rw [readJson_marshal sh _ (noNum_table x)]; exact read_table x
  · unfold Column.toJSON; rw [readJson_marshal sh _ (noNum_column x)]; exact read_column x
  · unfold Attribute.toJSON; rw [readJson_marshal sh _ (noNum_attr x)]; exact read_attr x
  · unfold Index.toJSON; rw [readJson_marshal sh _ (noNum_index x)]; exact read_index x
  · unfold ForeignKey.toJSON; rw [readJson_marshal sh _ (noNum_fk x)]; exact read_fk x
  · unfold Action.toJSON; rw [readJson_marshal sh _ (noNum_action x)]; exact read_action x

/-- The sample text is accepted, so `C31_parsed` applies to it. -/
example : (readJson (Sample.prog.denote.toJSON false)).bind readSchema = some Sample.prog.denote :=
  C31_parsed Sample.world Sample.text _ Sample.accepts false

/-- What the output looks like. -/
example : (Table.toJSON false ⟨"a<b".toList, some [⟨"i\"d".toList, "int".toList, some []⟩], none, none⟩) =
"{
  \"name\": \"a\\u003cb\",
  \"columns\": [
    {
      \"name\": \"i\\\"d\",
      \"type\": \"int\"
    }
  ]
}".toList := by decide +kernel

/-- C32. Schemas with the same JSON are the same, up to lists that are empty
or missing; Go versions do not matter. -/
theorem C32_injective (sh sh' : Bool) (s t : Schema) (h : s.toJSON sh = t.toJSON sh') :
    s.norm = t.norm := by
  have h1 := C31_faithful sh s
  rw [h, C31_faithful] at h1
  exact (Option.some.inj h1).symm

/-- C32. Texts that are accepted with different schemas have different JSON. -/
theorem C32_parsed (w w' : World) (s t : Str) (a b : Schema) (ha : Accepts w s a)
    (hb : Accepts w' t b) (sh : Bool) : a.toJSON sh = b.toJSON sh ↔ a = b := by
  constructor
  · intro h
    have := C32_injective sh sh a b h
    obtain ⟨p, _, _, rfl, _⟩ := ha.exists_program
    obtain ⟨q, _, _, rfl, _⟩ := hb.exists_program
    rwa [norm_denote, norm_denote] at this
  · rintro rfl; rfl

example : Sample.prog.denote.toJSON true = Sample.prog.denote.toJSON true ↔
    Sample.prog.denote = Sample.prog.denote :=
  C32_parsed Sample.world Sample.world _ _ _ _ Sample.accepts Sample.accepts true

/-- C33. JSON output of any schema contains no `<`, `>`, `&`, U+2028 or U+2029
and no control character except the newlines of the layout (a newline inside a
string would make the text unreadable, against `C31_faithful`). -/
theorem C33_escape_safe (sh : Bool) (s : Schema) (c : Char) (h : c ∈ s.toJSON sh) :
    c ≠ '<' ∧ c ≠ '>' ∧ c ≠ '&' ∧ c.toNat ≠ 0x2028 ∧ c.toNat ≠ 0x2029 ∧
    (c.toNat < 32 → c = '\n') := safe_marshal sh _ (noNum_schema s) c h

/-- C33. A string, whatever it contains, is read back whole: its content ends
neither the string nor the text early.  `t` is what follows. -/
theorem C33_string (sh : Bool) (s t : Str) :
    readJson (quote sh s) = some (.str s) ∧
    (∃ r, quote sh s ++ t = '"' :: r ∧ readString r = some (s, t)) := by
  constructor
  · have := readJson_marshal sh (.str s) trivial
    rw [marshal_pretty sh (.str s) trivial] at this
    exact this
  · refine ⟨s.flatMap (escChar sh) ++ ('"' :: t), ?_, ?_⟩
    · simp [quote]
    · rw [readString_body]

/-- A string with everything that could be trouble. -/
example : quote false "</script>\"\\\n&\u2028\x01é".toList =
    "\"\\u003c/script\\u003e\\\"\\\\\\n\\u0026\\u2028\\u0001é\"".toList := by decide +kernel

/-- Several keys. -/
def ks (l : List String) : List Str := l.map String.toList

/-- C34. The JSON of an accepted text: `owner` and `name` are always there and
come first; `tables`, `actions` and `extensions` follow, each left out exactly
if nothing of the kind is declared.  No list in it is `[]`. -/
theorem C34_schema (w : World) (s : Str) (sch : Schema) (h : Accepts w s sch) (p : Program)
    (hp : Writes s p) (sh : Bool) :
    ∃ j, readJson (sch.toJSON sh) = some j ∧ j.noEmptyList ∧
      j.keys = ks ["owner", "name"] ++ ifAny p.tables "tables" ++
        (if p.actions = [] ∧ p.inits = [] then [] else ks ["actions"]) ++ ifAny p.exts "extensions" ∧
      j.get "owner" = some (.str []) ∧ j.get "name" = some (.str p.name) ∧
      (j.items "tables").length = p.tables.length ∧
      (j.items "actions").length = p.actions.length + p.inits.length ∧
      (j.items "extensions").length = p.exts.length := by
  obtain ⟨hf, rfl, _⟩ := h.program hp
  refine ⟨p.denote.toJ, readJson_marshal sh _ (noNum_schema _), ne_schema p, ?_, rfl, rfl, ?_, ?_, ?_⟩
  · simp only [Schema.toJ, J.keys, List.map_append, keys_member, p.denote_tables, p.denote_actions,
      p.denote_exts, ifAny_append, ifAny_map, List.map_eq_nil_iff]
    rfl
  · rw [items_tables, p.denote_tables]; simp
  · rw [items_actions, p.denote_actions]; simp
  · rw [items_extensions, p.denote_exts]; simp

/-- C34. An extension has the three keys; `config` is `null` exactly if no
configuration is written. -/
theorem C34_extension (w : World) (s : Str) (sch : Schema) (h : Accepts w s sch) (p : Program)
    (hp : Writes s p) (sh : Bool) (j x : J) (hj : readJson (sch.toJSON sh) = some j) (i : Nat)
    (d : ExtDecl) (hd : p.exts[i]? = some d) (hx : (j.items "extensions")[i]? = some x) :
    x.keys = ks ["name", "config", "alias"] ∧ (x.get "config" = some .null ↔ d.config = none) := by
  obtain ⟨hf, rfl, _⟩ := h.program hp
  rw [Schema.toJSON, readJson_marshal sh _ (noNum_schema _)] at hj
  obtain rfl := Option.some.inj hj
  rw [items_extensions, p.denote_exts, List.getElem?_map, List.getElem?_map, hd] at hx
  obtain rfl := Option.some.inj hx
  refine ⟨rfl, ?_⟩
  show some (Slice.toJ _ d.denote.config) = some J.null ↔ _
  cases hc : d.config <;> simp [ExtDecl.denote, hc, Slice.toJ]

/-- C34. A table has `name` and `columns`; `indexes` and `foreign_keys` are
left out exactly if none is declared.  A column has `name`, `type` and, if
there is a constraint, `attributes`; an index has its three keys; a foreign
key has its four keys, and `actions` is `null` exactly if none is written. -/
theorem C34_table (w : World) (s : Str) (sch : Schema) (h : Accepts w s sch) (p : Program)
    (hp : Writes s p) (sh : Bool) (j x : J) (hj : readJson (sch.toJSON sh) = some j) (i : Nat)
    (d : TableDecl) (hd : p.tables[i]? = some d) (hx : (j.items "tables")[i]? = some x) :
    x.keys = ks ["name", "columns"] ++ ifAny d.indexes "indexes" ++ ifAny d.fks "foreign_keys" ∧
    (x.items "columns").map J.keys =
      d.columns.list.map (fun c => ks ["name", "type"] ++ ifAny c.constraints "attributes") ∧
    (x.items "indexes").map J.keys = d.indexes.map (fun _ => ks ["name", "columns", "type"]) ∧
    (x.items "foreign_keys").map (fun f => (f.keys, f.isNull "actions")) =
      d.fks.map (fun f => (ks ["child_keys", "parent_keys", "parent_table", "actions"],
        f.acts.isEmpty)) := by
  obtain ⟨hf, rfl, _⟩ := h.program hp
  rw [Schema.toJSON, readJson_marshal sh _ (noNum_schema _)] at hj
  obtain rfl := Option.some.inj hj
  rw [items_tables, p.denote_tables, List.getElem?_map, List.getElem?_map, hd] at hx
  obtain rfl := Option.some.inj hx
  refine ⟨?_, ?_, ?_, ?_⟩
  · simp only [Table.toJ, J.keys, List.map_append, List.map_cons, keys_member, TableDecl.denote,
      listed_elems, ifAny_map]
    rfl
  · rw [items_columns]
    simp only [TableDecl.denote, Slice.elems, Option.getD_some, List.map_map]
    apply List.map_congr_left
    intro c _
    simp only [Function.comp_def, Column.toJ, J.keys, List.map_append, keys_member, ColDecl.denote,
      listed_elems, ifAny_map]
    rfl
  · rw [items_indexes]
    simp only [TableDecl.denote, listed_elems, List.map_map]
    apply List.map_congr_left
    intro c _
    simp only [Function.comp_def, IdxDecl.denote]
    cases c.kind <;> rfl
  · rw [items_fks]
    simp only [TableDecl.denote, listed_elems, List.map_map]
    apply List.map_congr_left
    intro c _
    simp only [Function.comp_def]
    refine Prod.ext rfl ?_
    have hg : c.denote.toJ.get "actions" = some (c.denote.actions.toJ FKAction.toJ) := rfl
    simp only [J.isNull, hg, FkDecl.denote, toJ_listed]
    cases c.acts <;> rfl

/-- C34. An action has `name`, `inputs`, `public`, `mutability`,
`auxiliaries`, `statements` and, if any is written, `annotations`; `inputs` is
`null` exactly if there is no parameter, `auxiliaries` exactly if `owner` is
not written.  The init block counts as an action without parameters. -/
theorem C34_action (w : World) (s : Str) (sch : Schema) (h : Accepts w s sch) (p : Program)
    (hp : Writes s p) (sh : Bool) (j : J) (hj : readJson (sch.toJSON sh) = some j) :
    (j.items "actions").map (fun x => (x.keys, x.isNull "inputs",
        x.isNull "auxiliaries")) =
      p.actions.map (fun d =>
        (ks ["name"] ++ ifAny d.annotations "annotations" ++
          ks ["inputs", "public", "mutability", "auxiliaries", "statements"],
        d.params.list.isEmpty, !d.modifiers.contains .owner)) ++
      p.inits.map (fun _ =>
        (ks ["name", "inputs", "public", "mutability", "auxiliaries", "statements"], true, true)) := by
  obtain ⟨hf, rfl, _⟩ := h.program hp
  rw [Schema.toJSON, readJson_marshal sh _ (noNum_schema _)] at hj
  obtain rfl := Option.some.inj hj
  rw [items_actions, p.denote_actions]
  simp only [List.map_append, List.map_map]
  congr 1
  · apply List.map_congr_left
    intro d _
    simp only [Function.comp_def, J.isNull, get_inputs, get_auxiliaries]
    refine Prod.ext ?_ (Prod.ext ?_ ?_)
    · simp only [Action.toJ, J.keys, List.map_append, List.map_cons, keys_member, ActionDecl.denote,
        listed_elems, ifAny_map, List.append_assoc]
      rfl
    · show (match (some (Slice.toJ J.str (listed d.params.list)) : Option J) with
          | some .null => true | _ => false) = _
      cases d.params.list <;> rfl
    · show (match (some (Slice.toJ J.str (if d.modifiers.contains Modifier.owner then
          some ["owner".toList] else none)) : Option J) with
          | some .null => true | _ => false) = _
      cases d.modifiers.contains Modifier.owner <;> rfl

/-- The theorems apply to the sample text. -/
example : ∃ j, readJson (Sample.prog.denote.toJSON false) = some j ∧ j.noEmptyList ∧
    j.keys = ks ["owner", "name", "tables", "actions", "extensions"] := by
  obtain ⟨j, h1, h2, h3, _⟩ := C34_schema Sample.world Sample.text _ Sample.accepts Sample.prog
    Sample.writes false
  exact ⟨j, h1, h2, h3⟩

end Verif
