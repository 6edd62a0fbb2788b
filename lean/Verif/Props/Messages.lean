import Verif.Spec.Messages
import Verif.Props.Outcome
import Verif.Props.Samples
/-!
# C48: the texts of error messages
-/

namespace Verif

/-- The text of a wrapped sentinel, by its literal text. -/
theorem with_text (k : Sent) (m lead : Str) (h : k.text ++ ": ".toList = lead) :
    (k.with m).text = lead ++ m := by
  rw [← h]; rfl

theorem defect_told {env : Env} {s : Schema} {e : Err} (h : Defect env s e) :
    Told env s e.text := by
  cases h with
  | extension h => rw [with_text _ _ "duplicate extension: ".toList (by decide)]; exact .extension h
  | table h => rw [with_text _ _ "duplicate table: ".toList (by decide)]; exact .table h
  | action h => rw [with_text _ _ "duplicate action: ".toList (by decide)]; exact .action h
  | column h h' => rw [with_text _ _ "duplicate column: ".toList (by decide)]; exact .column h h'
  | index h h' h'' => rw [with_text _ _ "duplicate index: ".toList (by decide)]; exact .index h h' h''
  | «attribute» h h' h'' => rw [with_text _ _ "duplicate attribute: ".toList (by decide)]; exact .«attribute» h h' h''
  | misfit h h' h'' h3 =>
    have := Told.misfit (env := env) h h' h'' h3
    rw [with_text _ _ "attribute not allowed: ".toList (by decide)]; simp only [List.append_assoc] at this ⊢; exact this
  | indexColumn h h' h'' h3 =>
    have := Told.indexColumn (env := env) h h' h'' h3
    rw [with_text _ _ "column not found: ".toList (by decide)]; simp only [List.append_assoc] at this ⊢; exact this
  | param h h' => rw [with_text _ _ "duplicate param: ".toList (by decide)]; exact .param h h'
  | childKey h h' h'' h3 =>
    have := Told.childKey (env := env) h h' h'' h3
    rw [with_text _ _ "column not found: ".toList (by decide)]; simp only [List.append_assoc] at this ⊢; exact this
  | parentTable h h' h'' => rw [with_text _ _ "table not found: ".toList (by decide)]; exact .parentTable h h' h''
  | parentKey h h' h'' h3 h4 h5 =>
    have := Told.parentKey (env := env) h h' h'' h3 h4 h5
    rw [with_text _ _ "column not found: ".toList (by decide)]; simp only [List.append_assoc] at this ⊢; exact this
  | event h h' h'' => rw [with_text _ _ "duplicate foreign key action: ".toList (by decide)]; exact .event h h' h''
  | unparsable h h' => exact .refused h (.inl h')
  | badSql h h' h'' => exact .refused h (.inr ⟨h', h''⟩)
  | noAction h h' h'' => rw [with_text _ _ "action not found: ".toList (by decide)]; exact .noAction h h' h''
  | noExtension h h' h'' => rw [with_text _ _ "extension not found: ".toList (by decide)]; exact .noExtension h h' h''
  | «variable» h h' h'' h3 => rw [with_text _ _ "variable not found: ".toList (by decide)]; exact .«variable» h h' h'' h3
  | receiver h h' h'' => rw [with_text _ _ "duplicate variable: ".toList (by decide)]; exact .receiver h h' h''

theorem findSome?_some {α β : Type} {f : α → Option β} {b : β} : ∀ {l : List α},
    l.findSome? f = some b → ∃ a ∈ l, f a = some b := by
  intro l
  induction l with
  | nil => intro h; simp at h
  | cons a l ih =>
    intro h
    simp only [List.findSome?] at h
    split at h
    · cases h; exact ⟨a, by simp, by assumption⟩
    · obtain ⟨x, hx, hf⟩ := ih h
      exact ⟨x, by simp [hx], hf⟩


theorem fault_complaint {p : Program} {e : Err} (h : p.fault = some e) : Complaint p e.text := by
  unfold Program.fault at h
  split at h
  · cases h
    exact .inits (by assumption)
  · obtain ⟨a, ha, hf⟩ := findSome?_some h
    unfold modifierFault at hf
    split at hf
    · rename_i v x y hv
      cases hf
      have hm : v ∈ a.modifiers ∧ v.isVis = true := by
        have : v ∈ a.modifiers.filter Modifier.isVis := by rw [hv]; simp
        simpa using this
      have hc : 2 ≤ a.modifiers.count .pub + a.modifiers.count .priv := by
        rw [vis_count, hv]; simp
      have hvv : v = .pub ∨ v = .priv := by
        cases v <;> simp [Modifier.isVis] at hm ⊢
      have := Complaint.visibility (p := p) ha hvv hm.1 hc
      rcases hvv with rfl | rfl <;> exact this
    · split at hf
      · cases hf; exact .view ha (by assumption)
      · split at hf
        · cases hf; exact .owner ha (by assumption)
        · cases hf

/-- C48. The message of every error is a true statement, in the words of
`Spec/Messages.lean`: for a text that does not belong to the language it starts
with `syntax error: line l:c`, with the position and the message of the first
report of the parser; for a text that does, it is a complaint about the
declarations, or about the schema they denote, or the message of the panic of
an external parser. -/
theorem C48_messages (w : World) (s : Str) (mode : Nat) (el : ErrorList)
    (h : (parseKF w s none mode).err = some el) :
    ∃ m, el.text = some m ∧
      ((¬ (∃ p, Writes s p) ∧ ∃ line col msg, (w.report s).1 = (line, col, msg) ∧
          "syntax error: line ".toList ++ (toString line).toList ++ ":".toList ++
            (toString col).toList ++ " ".toList ++ msg <+: m) ∨
        ∃ p, Writes s p ∧
          (Complaint p m ∨ (p.fault = none ∧ Told w.toEnv p.denote m) ∨
            (p.fault = none ∧ ∃ q, PanicAt w.toEnv p.denote q ∧ m = panicText q))) := by
  have hel : el = (parseKF w s none mode).errors := by
    unfold Outcome.err at h
    split at h
    · simpa using h.symm
    · cases h
  by_cases hw : ∃ p, Writes s p
  · obtain ⟨p, hp⟩ := hw
    rw [hp.parseKF] at hel h
    cases hf : p.fault with
    | some e =>
      simp only [hf, Option.getD_none] at hel
      refine ⟨e.text, by rw [hel]; rfl, .inr ⟨p, hp, .inl (fault_complaint hf)⟩⟩
    | none =>
      cases hv : validate w.toEnv p.denote with
      | none =>
        simp only [hf, hv, Option.getD_none] at h
        cases h
      | some f =>
        rcases validate_some w.toEnv p.denote hv with ⟨e, rfl, hd⟩ | ⟨q, d, stmt, hd, rfl, hx⟩
        · simp only [hf, hv, Option.getD_none] at hel
          exact ⟨e.text, by rw [hel]; rfl, .inr ⟨p, hp, .inr (.inl ⟨hf, defect_told hd⟩)⟩⟩
        · simp only [hf, hv, Option.getD_none] at hel
          refine ⟨panicText q, ?_, .inr ⟨p, hp, .inr (.inr ⟨hf, q, ⟨d, stmt, hd, hx⟩, rfl⟩)⟩⟩
          rw [hel]
          cases q <;> rfl
  · rw [parseKF_bad hw] at hel
    obtain ⟨m, hm, hpre⟩ := list_text_real (syntaxErr (w.report s).1)
      ((w.report s).2.map (fun r => Entry.real (syntaxErr r)) ++
        [match w.crash s with | some p => .real p.toErr | none => .self])
    refine ⟨m, ?_, .inl ⟨hw, (w.report s).1.1, (w.report s).1.2.1, (w.report s).1.2.2, rfl, ?_⟩⟩
    · rw [hel, ← hm]
      cases w.crash s <;> rfl
    · refine List.IsPrefix.trans ?_ hpre
      unfold syntaxErr
      rw [with_text _ _ "syntax error: ".toList rfl]
      have hl : "syntax error: line ".toList = "syntax error: ".toList ++ "line ".toList := by decide
      rw [hl]
      simp only [List.append_assoc]
      exact List.prefix_rfl

theorem is_with {k k' : Sent} {m : Str} : (k.with m).is k' = true ↔ k' = k := by
  simp [Sent.with, Err.is]

theorem defect_kind {env : Env} {s : Schema} {e : Err} {k : Sent} (h : Defect env s e)
    (hx : ∀ stmt e, (env.actParse stmt = .error (.err e) ∨ env.sqlCheck stmt = some (.err e)) →
      e.is k = false) (hk : e.is k = true) : KindIn env s k := by
  cases h with
  | extension h => cases is_with.1 hk; exact ⟨_, h⟩
  | table h => cases is_with.1 hk; exact ⟨_, h⟩
  | action h => cases is_with.1 hk; exact ⟨_, h⟩
  | column h h' => cases is_with.1 hk; exact ⟨_, h, _, h'⟩
  | index h h' h'' => cases is_with.1 hk; exact ⟨_, h, _, h', h''⟩
  | «attribute» h h' h'' => cases is_with.1 hk; exact ⟨_, h, _, h', _, h''⟩
  | misfit h h' h'' h3 => cases is_with.1 hk; exact ⟨_, h, _, h', _, h'', h3⟩
  | indexColumn h h' h'' h3 => cases is_with.1 hk; exact .inl ⟨_, h, _, h', _, h'', h3⟩
  | param h h' => cases is_with.1 hk; exact ⟨_, h, _, h'⟩
  | childKey h h' h'' h3 => cases is_with.1 hk; exact .inr (.inl ⟨_, h, _, h', _, h'', h3⟩)
  | parentTable h h' h'' => cases is_with.1 hk; exact ⟨_, h, _, h', h''⟩
  | parentKey h h' h'' h3 h4 h5 =>
    cases is_with.1 hk; exact .inr (.inr ⟨_, h, _, h', _, h'', h3, _, h4, h5⟩)
  | event h h' h'' => cases is_with.1 hk; exact ⟨_, h, _, h', _, h''⟩
  | unparsable h h' => rw [Err.is, hx _ _ (.inl h')] at hk; cases hk
  | badSql h h' h'' => rw [Err.is, hx _ _ (.inr h'')] at hk; cases hk
  | noAction h h' h'' => cases is_with.1 hk; exact ⟨_, _, h, _, _, h', h''⟩
  | noExtension h h' h'' => cases is_with.1 hk; exact ⟨_, _, h, _, _, _, h', h''⟩
  | «variable» h h' h'' h3 => cases is_with.1 hk; exact ⟨_, _, h, _, h', _, _, h'', h3⟩
  | receiver h h' h'' => cases is_with.1 hk; exact ⟨_, _, h, _, _, _, h', _, h''⟩

/-- C48. `errors.Is` tells the kind of the mistake: if the error returned for a
text is, for `errors.Is`, one of the package's sentinels, then the text has the
mistake that the sentinel stands for (and the sentinels
`ErrNotSupportColumnType` and `ErrBlockVarNotFound` are never returned).  For
external parsers whose own errors are not that sentinel. -/
theorem C48_kinds (w : World) (s : Str) (mode : Nat) (k : Sent) (el : ErrorList)
    (hx : ∀ stmt e, (w.actParse stmt = .error (.err e) ∨ w.actParse stmt = .error (.panic (.err e)) ∨
      w.sqlCheck stmt = some (.err e) ∨ w.sqlCheck stmt = some (.panic (.err e))) → e.is k = false)
    (h : (parseKF w s none mode).err = some el) (hk : el.is k = true) :
    (k = .invalidSyntax ∧ ¬ ∃ p, Writes s p) ∨
    ∃ p, Writes s p ∧ (KindOf p k ∨ (p.fault = none ∧ KindIn w.toEnv p.denote k)) := by
  have hel : el = (parseKF w s none mode).errors := by
    unfold Outcome.err at h
    split at h
    · simpa using h.symm
    · cases h
  by_cases hw : ∃ p, Writes s p
  · obtain ⟨p, hp⟩ := hw
    refine .inr ⟨p, hp, ?_⟩
    rw [hp.parseKF] at hel h
    cases hf : p.fault with
    | some e =>
      simp only [hf, Option.getD_none] at hel
      have he : e.is k = true := by rw [hel] at hk; exact hk
      left
      unfold Program.fault at hf
      split at hf
      · cases hf
        have : k = .multiInit := by simpa [Err.is] using he
        subst this; assumption
      · obtain ⟨a, ha, hm⟩ := findSome?_some hf
        unfold modifierFault at hm
        split at hm
        · rename_i v x y hv
          cases hm
          cases is_with.1 he
          refine ⟨a, ha, ?_⟩
          rw [vis_count, hv]; simp
        · split at hm
          · cases hm; cases is_with.1 he; exact ⟨a, ha, by assumption⟩
          · split at hm
            · cases hm; cases is_with.1 he; exact ⟨a, ha, by assumption⟩
            · cases hm
    | none =>
      right
      refine ⟨rfl, ?_⟩
      cases hv : validate w.toEnv p.denote with
      | none =>
        simp only [hf, hv, Option.getD_none] at h
        cases h
      | some f =>
        rcases validate_some w.toEnv p.denote hv with ⟨e, rfl, hd⟩ | ⟨q, d, stmt, hd, rfl, hq⟩
        · simp only [hf, hv, Option.getD_none] at hel
          have he : e.is k = true := by rw [hel] at hk; exact hk
          exact defect_kind hd (fun stmt e he => hx stmt e (by rcases he with h | h <;> simp [h])) he
        · simp only [hf, hv, Option.getD_none] at hel
          have he : q.toErr.is k = true := by rw [hel] at hk; exact hk
          cases q with
          | str m => simp [Panic.toErr, Err.is] at he
          | val m => simp [Panic.toErr, Err.is] at he
          | err e =>
            have := hx stmt e (by rcases hq with h | ⟨_, h⟩ <;> simp [h])
            rw [show (Panic.err e).toErr = e from rfl, this] at he
            cases he
  · rw [parseKF_bad hw] at hel
    refine .inl ⟨?_, hw⟩
    rw [hel] at hk
    have : (syntaxErr (w.report s).1).is k = true := hk
    exact is_with.1 this

/-- Cases: a complaint about the declarations, one about the schema, a refused
statement, a panic, a syntax error. -/
example :
    let said := fun x : String => (parse Sample.world x.toList).errors.text
    said "database d; action a() public private {hello($x);}" =
      some "action visibility already specified: public".toList ∧
    said "database d; table t {x int} table t {y int}" = some "duplicate table: t".toList ∧
    said "database d; table t {x int, #i unique(y)}" =
      some "column not found: index(t/y)".toList ∧
    said "database d; action a() public {foo();}" = some "cannot parse: foo();".toList ∧
    said "database d; action a() public {boom();}" = some "boom".toList ∧
    said "databse d;" = some "syntax error: line 1:0 mismatched input (with 1+ errors)".toList := by
  decide +kernel

/-- `errors.Is` on such an error (C48_kinds). -/
example : (parse Sample.world "database d; table t {x int} table t {y int}".toList).errors.is
    .duplicateTable = true := by decide +kernel

end Verif
