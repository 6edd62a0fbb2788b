import Verif.Proof.TruncateBytes
import Verif.Props.Meaning
import Verif.Props.Statements
/-!
# C70: texts that break off
-/

namespace Verif

/-- C70. If a prefix of a program's text is itself the text of a program, it
writes exactly the first declarations of it, each of them whole: no token of a
further declaration is left, and nothing of those declarations has changed. -/
theorem C70_first_declarations (s x : Str) (p q : Program) (hp : Writes s p) (hx : x <+: s)
    (hq : Writes x q) : ∃ n, n ≤ p.count ∧ Writes x (p.take n) ∧ q.toks = (p.take n).toks := by
  obtain ⟨n, hn⟩ := writes_prefix hp hx hq
  have hm : ∀ n, p.take (min n p.count) = p.take n := by
    intro n
    rcases Nat.le_total n p.count with h | h
    · rw [Nat.min_eq_left h]
    · rw [Nat.min_eq_right h]
      unfold Program.count at h
      simp only [Program.take, Program.count]
      rw [List.take_of_length_le (l := p.exts) (by omega), List.take_of_length_le (l := p.exts) (by omega),
        List.take_of_length_le (l := p.decls) (by omega), List.take_of_length_le (l := p.decls) (by omega)]
  refine ⟨min n p.count, Nat.min_le_right _ _, ?_, ?_⟩
  · rw [hm]; exact hn
  · rw [hm]; exact (hq.unique hn).1

/-- C70, the other direction: after each declaration there is a place where the
text can break off unnoticed by the syntax. -/
theorem C70_boundaries (s : Str) (p : Program) (hp : Writes s p) (n : Nat) :
    ∃ x, x <+: s ∧ Writes x (p.take n) := by
  obtain ⟨l, hl, hv⟩ := hp
  have hcut : visible l = (p.take n).toks ++ (p.units.drop n).flatten := by
    rw [hv, p.toks_units, Program.toks_units, Program.units_take, List.append_assoc,
      ← List.flatten_append, List.take_append_drop]
    rfl
  obtain ⟨l₁, l₂, rfl, h1, _⟩ := visible_cut hcut
  have := Tokenises.cut hl (y := []) (k := []) List.nil_prefix .nil
  refine ⟨l₁.flatMap (·.1.text) ++ [], ?_, l₁ ++ [], this, by simpa using h1⟩
  rw [List.append_nil, ← hl.text, List.flatMap_append]
  exact List.prefix_append _ _

theorem action_not_init {s : Str} {p : Program} (hp : Writes s p) {d : ActionDecl} (hd : d ∈ p.actions) :
    d.denote.name ≠ "init".toList := by
  intro hn
  have hm : idTok d.name ∈ p.toks := by
    apply decl_toks_sub (mem_actions hd)
    simp [Decl.toks, ActionDecl.toks]
  have := hp.ident hm
  rw [show d.name = "init".toList from hn] at this
  exact this.2 (by decide)

/-- C70. What `ParseKF` makes of the first bytes of a file, wherever the file
breaks off, even inside a character: an error, or a schema with the same
database name whose extensions, tables and actions are the first ones of the
whole file's schema, unchanged. -/
theorem C70_truncated (w : World) (bs b : List UInt8) (m m' : Nat) (sch sch' : Schema) (hb : b <+: bs)
    (h : (parseKFBytes w bs none m).err = none) (hr : (parseKFBytes w bs none m).result = some sch)
    (h' : (parseKFBytes w b none m').err = none)
    (hr' : (parseKFBytes w b none m').result = some sch') :
    sch'.name = sch.name ∧ sch'.owner = sch.owner ∧
    sch'.extensions.elems <+: sch.extensions.elems ∧
    sch'.tables.elems <+: sch.tables.elems ∧
    sch'.ordinary <+: sch.ordinary ∧
    (∀ a ∈ sch'.actions.elems, a ∈ sch.actions.elems) ∧
    (sch'.tables.elems ≠ [] ∨ sch'.actions.elems ≠ [] → sch'.extensions = sch.extensions) := by
  obtain ⟨p, hp, hf, hd, _⟩ := accepts_iff.1 ⟨h, hr⟩
  obtain ⟨q, hq, hf', hd', _⟩ := accepts_iff.1 ⟨h', hr'⟩
  obtain ⟨x, k, hx, hpre⟩ := decodes_prefix ((C47_decoding bs _).2 rfl) hb ((C47_decoding b _).2 rfl)
  rw [hx] at hq
  have hq := writes_drops hq
  obtain ⟨n, hn⟩ := writes_prefix hp hpre hq
  have hu := hq.unique hn
  have hden := hu.2.2.2 hf'
  subst hd hd'
  rw [hden]
  have hpref : (p.take n).decls <+: p.decls := List.take_prefix _ _
  have hext : (p.take n).exts <+: p.exts := List.take_prefix _ _
  have fm : ∀ {β : Type} (f : Decl → Option β), (p.take n).decls.filterMap f <+: p.decls.filterMap f :=
    fun f => hpref.filterMap f
  have hno : ∀ (r : Program) (t : Str), Writes t r → r.denote.ordinary = r.actions.map ActionDecl.denote := by
    intro r t hr
    unfold Schema.ordinary
    rw [r.denote_actions, List.filter_append, List.filter_eq_self.2, List.filter_eq_nil_iff.2,
      List.append_nil]
    · intro a ha
      obtain ⟨b, _, rfl⟩ := List.mem_map.1 ha
      simp [initAction]
    · intro a ha
      obtain ⟨d, hd, rfl⟩ := List.mem_map.1 ha
      exact decide_eq_true (action_not_init hr hd)
  refine ⟨rfl, rfl, ?_, ?_, ?_, ?_, ?_⟩
  · rw [Program.denote_exts, Program.denote_exts]
    exact hext.map _
  · rw [Program.denote_tables, Program.denote_tables]
    exact (fm _).map _
  · rw [hno _ _ hp, hno _ _ hn]
    exact (fm _).map _
  · intro a ha
    rw [Program.denote_actions] at ha ⊢
    rcases List.mem_append.1 ha with ha | ha
    · exact List.mem_append_left _ (((fm _).map _).subset ha)
    · exact List.mem_append_right _ (((fm _).map _).subset ha)
  · intro hne
    have hlt : p.exts.length < n := by
      rcases Nat.lt_or_ge p.exts.length n with h | h
      · exact h
      · exfalso
        have h0 : (p.take n).decls = [] := by
          simp [Program.take, Nat.sub_eq_zero_of_le h]
        rw [Program.denote_tables, Program.denote_actions] at hne
        simp [Program.tables, Program.actions, Program.inits, h0] at hne
    simp only [Program.denote, Program.take]
    rw [List.take_of_length_le (by omega)]

/-! ## A file that breaks off -/

namespace Sample

/-- Two tables and a comment that ends in `é`. -/
def file : List UInt8 := encode "database d; table a{x int} table b{y int} // é".toList

/-- The file without its last byte: half of `é` is left. -/
def half : List UInt8 := file.dropLast

/-- The file breaks off after the first table. -/
def quarter : List UInt8 := file.take 27

def fileProg : Program :=
  ⟨"d".toList, [], [.table ⟨"a".toList, ⟨⟨"x".toList, .int, []⟩, []⟩, [], false⟩,
    .table ⟨"b".toList, ⟨⟨"y".toList, .int, []⟩, []⟩, [], false⟩]⟩

theorem reads_file {b : List UInt8} {p : Program} (hb : lexAll (decode b) = some p.toks)
    (hf : p.fault = none) (hv : validate world.toEnv p.denote = none) (m : Nat) :
    (parseKFBytes world b none m).err = none ∧ (parseKFBytes world b none m).result = some p.denote := by
  unfold parseKFBytes
  rw [(writes_iff.2 hb).parseKF, hf, hv]
  simp [Outcome.err, ErrorList.isErr]

theorem file_accepted (m : Nat) : (parseKFBytes world file none m).err = none ∧
    (parseKFBytes world file none m).result = some fileProg.denote :=
  reads_file (by decide +kernel) (by decide +kernel) (by decide +kernel) m

theorem half_accepted (m : Nat) : (parseKFBytes world half none m).err = none ∧
    (parseKFBytes world half none m).result = some fileProg.denote :=
  reads_file (by decide +kernel) (by decide +kernel) (by decide +kernel) m

theorem quarter_accepted (m : Nat) : (parseKFBytes world quarter none m).err = none ∧
    (parseKFBytes world quarter none m).result = some (fileProg.take 1).denote :=
  reads_file (by decide +kernel) (by decide +kernel) (by decide +kernel) m

/-- The hypotheses of `C70_truncated` are met by a file that breaks off inside
a character, and by one that has lost a table. -/
example : half <+: file ∧ quarter <+: file :=
  ⟨List.dropLast_prefix _, List.take_prefix _ _⟩

example : (fileProg.take 1).denote.tables.elems <+: fileProg.denote.tables.elems :=
  (C70_truncated world file quarter 0 0 _ _ (List.take_prefix _ _) (file_accepted 0).1 (file_accepted 0).2
    (quarter_accepted 0).1 (quarter_accepted 0).2).2.2.2.1

/-- Those of the other two by the sample text. -/
example : ∃ n, n ≤ prog.count ∧ Writes text (prog.take n) ∧ prog.toks = (prog.take n).toks :=
  C70_first_declarations text text prog prog writes (List.prefix_refl _) writes

example : ∃ x, x <+: text ∧ Writes x (prog.take 3) := C70_boundaries text prog writes 3

end Sample

end Verif
