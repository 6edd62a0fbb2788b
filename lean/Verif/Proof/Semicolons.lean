import Verif.Proof.Brackets
/-!
# Semicolons
-/

namespace Verif

set_option Elab.async false

/-- Adjacent tokens, as far as semicolons are concerned. -/
def semiPair (a b : TT) : Bool :=
  (b != .SCOL || [TT.IDENTIFIER, .R_PAREN, .SQL_STMT].contains a) &&
  (a != .SCOL || [TT.IDENTIFIER, .PARAM_OR_VAR, .SQL_STMT, .R_BRACE, .USE_, .TABLE_, .ACTION_, .INIT_,
    .BLOCK_VAR_OR_ANNOTATION, .EOF].contains b) &&
  (a != .IDENTIFIER || ![TT.USE_, .TABLE_, .ACTION_, .INIT_, .BLOCK_VAR_OR_ANNOTATION, .EOF].contains b) &&
  (a != .R_PAREN || ![TT.IDENTIFIER, .PARAM_OR_VAR, .SQL_STMT].contains b)

theorem semi_pairs {ts : List Tok} (h : Sentence ts) : Chain semiPair ts := by
  obtain ⟨tree, h⟩ := h
  have hR : ∀ r ∈ Rule.all,
      (grammar r).okPairs ruleInfo Rule.all (fun _ => true) semiPair = true := by
    decide +kernel
  exact (chain_append.1 (gen_described hR h (by decide)).pairs).1

/-- What may stand after `;` inside a body. -/
def inBody (b : TT) : Bool := [TT.IDENTIFIER, .PARAM_OR_VAR, .SQL_STMT, .R_BRACE].contains b

/-- May the type follow the last one, inside a body (`st`) or not? -/
def semiOk (st : Bool) (prev t : TT) : Bool :=
  (t != .SCOL || st == (prev != .IDENTIFIER)) && (prev != .SCOL || st == inBody t) &&
  (!st || t != .R_BRACE || prev == .SCOL)

/-- Is the next token inside a body? -/
def semiNext (st : Bool) (prev t : TT) : Bool :=
  if t = .L_BRACE then [TT.R_PAREN, .PUBLIC_, .PRIVATE_, .VIEW_, .OWNER_].contains prev
  else if t = .R_BRACE then false else st

/-- Reading tokens. -/
def semiRun : Bool × TT → List TT → Option (Bool × TT)
  | sp, [] => some sp
  | (st, p), t :: l => if semiOk st p t then semiRun (semiNext st p t, t) l else none

theorem semiRun_append (a : List TT) : ∀ (sp : Bool × TT) (b : List TT),
    semiRun sp (a ++ b) = (semiRun sp a).bind fun q => semiRun q b := by
  induction a with
  | nil => intro sp b; rfl
  | cons t a ih =>
    rintro ⟨st, p⟩ b
    simp only [List.cons_append, semiRun]
    split
    · exact ih _ _
    · rfl

/-- Tokens that are no `;`, `{` or `}`. -/
def PlainTT (t : TT) : Prop := t ≠ .SCOL ∧ t ≠ .L_BRACE ∧ t ≠ .R_BRACE

instance (t : TT) : Decidable (PlainTT t) := by unfold PlainTT; infer_instance

theorem semiRun_plain {l : List TT} : ∀ {st : Bool} {p : TT}, (∀ t ∈ l, PlainTT t) → p ≠ .SCOL →
    semiRun (st, p) l = some (st, l.getLast?.getD p) := by
  induction l with
  | nil => intro st p _ _; rfl
  | cons t l ih =>
    intro st p h hp
    obtain ⟨h1, h2, h3⟩ := h t (by simp)
    have e1 : semiOk st p t = true := by
      simp [semiOk, h1, h3, hp]
    have e2 : semiNext st p t = st := by simp [semiNext, h2, h3]
    rw [semiRun, if_pos e1, e2, ih (fun u hu => h u (by simp [hu])) h1]
    cases l <;> simp [List.getLast?_cons]

/-- The last token of a text that the tokens were read from. -/
theorem semiRun_last {a : List TT} : ∀ {sp q : Bool × TT}, semiRun sp a = some q →
    q.2 = a.getLast?.getD sp.2 := by
  induction a with
  | nil => intro sp q h; simp only [semiRun, Option.some.injEq] at h; subst h; rfl
  | cons t a ih =>
    rintro ⟨st, p⟩ q h
    simp only [semiRun] at h
    split at h
    · rw [ih h]
      cases a <;> simp [List.getLast?_cons]
    · cases h

/-- The types of tokens. -/
abbrev tys (l : List Tok) : List TT := l.map (·.ty)

theorem tys_append (a b : List Tok) : tys (a ++ b) = tys a ++ tys b := List.map_append

theorem tys_last (a : List Tok) (t : Tok) (p : TT) : (tys (a ++ [t])).getLast?.getD p = t.ty := by
  rw [tys_append, List.getLast?_append]
  rfl

/-- Plain tokens. -/
def PlainToks (l : List Tok) : Prop := ∀ t ∈ l, PlainTT t.ty

theorem PlainToks.nil : PlainToks [] := by intro t ht; simp at ht
theorem PlainToks.cons {t : Tok} {l : List Tok} (h : PlainTT t.ty) (hl : PlainToks l) : PlainToks (t :: l) := by
  intro u hu
  rcases List.mem_cons.1 hu with rfl | hu
  · exact h
  · exact hl u hu
theorem PlainToks.append {a b : List Tok} (ha : PlainToks a) (hb : PlainToks b) : PlainToks (a ++ b) := by
  intro u hu
  rcases List.mem_append.1 hu with hu | hu
  · exact ha u hu
  · exact hb u hu
theorem PlainToks.flatMap {α : Type} {f : α → List Tok} {l : List α} (h : ∀ x ∈ l, PlainToks (f x)) :
    PlainToks (l.flatMap f) := by
  intro t ht
  obtain ⟨x, hx, ht⟩ := List.mem_flatMap.1 ht
  exact h x hx t ht
theorem plain_one {t : Tok} (h : PlainTT t.ty) : PlainToks [t] := .cons h .nil
theorem plain_ne {α : Type} {f : α → List Tok} {x : NE α} (h : ∀ y, PlainToks (f y)) : PlainToks (x.toks f) :=
  (h _).append (.flatMap fun y _ => .cons (by decide) (h y))
theorem plain_comma {α : Type} {f : α → List Tok} {x : CommaList α} (h : ∀ y, PlainToks (f y)) :
    PlainToks (x.toks f) :=
  .append (.flatMap fun y _ => h y) (.flatMap fun y _ => .cons (by decide) (h y))
theorem plain_lit (l : Lit) : PlainTT l.tok.ty := by
  cases l with
  | num s => exact (show PlainTT TT.UNSIGNED_NUMBER_LITERAL by decide)
  | str s => exact (show PlainTT TT.STRING_LITERAL by decide)
theorem plain_pair {sep : TT} (hs : PlainTT (kw sep).ty) (p : Pair) : PlainToks (p.toks sep) :=
  .cons (show PlainTT TT.IDENTIFIER by decide) (.cons hs (plain_one (plain_lit _)))
theorem plain_names (x : NE Str) : PlainToks (parenNames x) :=
  .append (.append (plain_one (by decide)) (plain_ne fun _ => plain_one (show PlainTT TT.IDENTIFIER by decide)))
    (plain_one (by decide))

theorem plain_expr {b : Bool} (e : Expr b) : PlainToks e.toks := by
  induction e with
  | lit l => exact plain_one (plain_lit l)
  | var s => exact plain_one (show PlainTT TT.PARAM_OR_VAR by decide)
  | block s => exact plain_one (show PlainTT TT.BLOCK_VAR_OR_ANNOTATION by decide)
  | paren e ih => exact .append (.append (plain_one (by decide)) ih) (plain_one (by decide))
  | un o e ih => exact .cons (by cases o <;> decide) ih
  | not e ih => exact .cons (by decide) ih
  | fn0 n => exact .cons (show PlainTT TT.IDENTIFIER by decide) (.cons (by decide) (plain_one (by decide)))
  | fnStar n =>
    exact .cons (show PlainTT TT.IDENTIFIER by decide) (.cons (by decide) (.cons (by decide) (plain_one (by decide))))
  | fn n as ih =>
    exact .append (.append (.cons (show PlainTT TT.IDENTIFIER by decide) (plain_one (by decide))) ih)
      (plain_one (by decide))
  | bin l o r ih₁ ih₂ => exact .append (.append ih₁ (plain_one (by cases o <;> decide))) ih₂
  | one e ih => exact ih
  | more e es ih₁ ih₂ => exact .append (.append ih₁ (plain_one (by decide))) ih₂

theorem plain_columns (t : TableDecl) : PlainToks (t.columns.toks ColDecl.toks ++
    t.items.flatMap (fun i => kw .COMMA :: i.toks) ++ (if t.trailingComma then [kw .COMMA] else [])) := by
  have hcol : ∀ c : ColDecl, PlainToks c.toks := by
    intro c
    refine .append (.cons (show PlainTT TT.IDENTIFIER by decide) (.cons (by cases c.type <;> decide) .nil))
      (.flatMap fun k _ => ?_)
    have num : ∀ n, PlainTT (numTok n).ty := fun n => show PlainTT TT.UNSIGNED_NUMBER_LITERAL by decide
    cases k with
    | primary => exact plain_one (by decide)
    | notNull => exact plain_one (by decide)
    | unique => exact plain_one (by decide)
    | default l => exact .cons (by decide) (.cons (by decide) (.cons (plain_lit l) (plain_one (by decide))))
    | min n => exact .cons (by decide) (.cons (by decide) (.cons (num n) (plain_one (by decide))))
    | max n => exact .cons (by decide) (.cons (by decide) (.cons (num n) (plain_one (by decide))))
    | minLen n => exact .cons (by decide) (.cons (by decide) (.cons (num n) (plain_one (by decide))))
    | maxLen n => exact .cons (by decide) (.cons (by decide) (.cons (num n) (plain_one (by decide))))
  have hitem : ∀ i : TableItem, PlainToks i.toks := by
    intro i
    cases i with
    | index i =>
      exact .append (.cons (show PlainTT TT.INDEX_NAME by decide) (.cons (by cases i.kind <;> decide) .nil))
        (plain_names _)
    | fk f =>
      refine .append (.append (.append (.append (plain_one (by cases f.short <;> decide)) (plain_names _))
        (.cons (by cases f.shortRef <;> decide) (.cons (show PlainTT TT.IDENTIFIER by decide) .nil)))
        (plain_names _)) (.flatMap fun a _ => ?_)
      refine .append (.append (plain_one (by cases a.on <;> decide)) ?_) (plain_one (by cases a.act <;> decide))
      split
      · exact plain_one (by decide)
      · exact .nil
  refine .append (.append (plain_ne hcol) (.flatMap fun i _ => .cons (by decide) (hitem i))) ?_
  split
  · exact plain_one (by decide)
  · exact .nil

/-- Places between declarations. -/
def Between (p : TT) : Prop := p = .SCOL ∨ p = .R_BRACE

theorem semi_run_plain {l : List Tok} {st : Bool} {p : TT} (h : PlainToks l) (hp : p ≠ .SCOL) :
    semiRun (st, p) (tys l) = some (st, (tys l).getLast?.getD p) :=
  semiRun_plain (fun t ht => by
    obtain ⟨u, hu, rfl⟩ := List.mem_map.1 ht
    exact h u hu) hp

/-- A first token after `;` or `}`, outside bodies. -/
theorem semi_run_first {t : Tok} {l : List Tok} {p : TT} (hp : Between p) (ht : inBody t.ty = false)
    (hpl : PlainTT t.ty) : semiRun (false, p) (tys (t :: l)) = semiRun (false, t.ty) (tys l) := by
  obtain ⟨h1, h2, h3⟩ := hpl
  have e1 : semiOk false p t.ty = true := by simp [semiOk, h1, ht]
  have e2 : semiNext false p t.ty = false := by simp [semiNext, h2, h3]
  show (if semiOk false p t.ty then semiRun (semiNext false p t.ty, t.ty) (tys l) else none) = _
  rw [if_pos e1, e2]

theorem semi_run_stmt (s : Stmt) {p : TT} (hp : p ≠ .IDENTIFIER) :
    semiRun (true, p) (tys s.toks) = some (true, .SCOL) := by
  have key : ∀ (t : Tok) (l : List Tok), inBody t.ty = true → PlainTT t.ty → PlainToks l →
      ((tys l).getLast?.getD t.ty ≠ .IDENTIFIER) →
      semiRun (true, p) (tys (t :: l ++ [kw .SCOL])) = some (true, .SCOL) := by
    intro t l hb ht hl hlast
    have e1 : semiOk true p t.ty = true := by simp [semiOk, ht.1, ht.2.2, hb]
    have e2 : semiNext true p t.ty = true := by simp [semiNext, ht.2.1, ht.2.2]
    have : tys (t :: l ++ [kw .SCOL]) = t.ty :: (tys l ++ [.SCOL]) := by simp [kw]
    rw [this, semiRun, if_pos e1, e2, semiRun_append, semi_run_plain hl ht.1]
    generalize hq : (tys l).getLast?.getD t.ty = q at hlast ⊢
    have hqs : q ≠ .SCOL := by
      subst hq
      cases hx : (tys l).getLast? with
      | none => exact ht.1
      | some z =>
        obtain ⟨u, hu, rfl⟩ := List.mem_map.1 (List.mem_of_getLast? hx)
        exact (hl u hu).1
    simp [semiRun, semiOk, semiNext, hlast, hqs]
  cases s with
  | sql t => exact key ⟨.SQL_STMT, t⟩ [] rfl (show PlainTT TT.SQL_STMT by decide) .nil (by simp)
  | call rs ext m args =>
    have hargs : PlainToks (args.toks Expr.toks) := plain_comma fun e => plain_expr e
    have htail : PlainToks ([kw .L_PAREN] ++ args.toks Expr.toks ++ [kw .R_PAREN]) :=
      .append (.append (plain_one (by decide)) hargs) (plain_one (by decide))
    have hid : ∀ x, PlainTT (idTok x).ty := fun _ => show PlainTT TT.IDENTIFIER by decide
    have hext : ∀ e : Option Str, PlainToks (match e with
        | none => []
        | some e => [idTok e, kw .PERIOD]) := by
      intro e
      cases e with
      | none => exact .nil
      | some e => exact .cons (hid e) (plain_one (by decide))
    have hlast : ∀ (l : List Tok) (t : TT),
        (tys (l ++ ([kw .L_PAREN] ++ args.toks Expr.toks ++ [kw .R_PAREN]))).getLast?.getD t = .R_PAREN := by
      intro l t
      rw [← List.append_assoc, tys_last]
      rfl
    cases rs with
    | none =>
      cases ext with
      | none =>
        have := key (idTok m) ([kw .L_PAREN] ++ args.toks Expr.toks ++ [kw .R_PAREN]) rfl (hid m) htail
          (by have := hlast [] (idTok m).ty; simp only [List.nil_append] at this; rw [this]; decide)
        simpa [Stmt.toks] using this
      | some e =>
        have := key (idTok e) ([kw .PERIOD, idTok m] ++ ([kw .L_PAREN] ++ args.toks Expr.toks ++ [kw .R_PAREN])) rfl
          (hid e) (.append (.cons (by decide) (plain_one (hid m))) htail) (by rw [hlast]; decide)
        simpa [Stmt.toks] using this
    | some rs =>
      have hvar : ∀ x, PlainTT (varTok x).ty := fun _ => show PlainTT TT.PARAM_OR_VAR by decide
      have := key (varTok rs.head) (rs.tail.flatMap (fun y => kw .COMMA :: [varTok y]) ++ [kw .ASSIGN] ++
          (match ext with
            | none => []
            | some e => [idTok e, kw .PERIOD]) ++ [idTok m] ++
          ([kw .L_PAREN] ++ args.toks Expr.toks ++ [kw .R_PAREN])) rfl (hvar _)
        (.append (.append (.append (.append (.flatMap fun y _ => .cons (by decide) (plain_one (hvar y)))
          (plain_one (by decide))) (hext ext)) (plain_one (hid m))) htail) (by rw [hlast]; decide)
      cases ext <;> simpa [Stmt.toks, NE.toks] using this

theorem semi_run_body (b : NE Stmt) {p : TT} (hp : semiNext false p .L_BRACE = true) (hs : p ≠ .SCOL) :
    semiRun (false, p) (tys (bodyToks b)) = some (false, .R_BRACE) := by
  have hstmts : ∀ (l : List Stmt) (p : TT), p ≠ .IDENTIFIER → (l = [] → p = .SCOL) →
      semiRun (true, p) (tys (l.flatMap Stmt.toks)) = some (true, .SCOL) := by
    intro l
    induction l with
    | nil => intro p _ h; rw [h rfl]; rfl
    | cons s l ih =>
      intro p hp _
      have : tys ((s :: l).flatMap Stmt.toks) = tys s.toks ++ tys (l.flatMap Stmt.toks) := by simp
      rw [this, semiRun_append, semi_run_stmt s hp]
      exact ih .SCOL (by decide) (fun _ => rfl)
  have : tys (bodyToks b) = TT.L_BRACE :: (tys (b.list.flatMap Stmt.toks) ++ [.R_BRACE]) := by
    simp [bodyToks, kw]
  rw [this]
  have e1 : semiOk false p .L_BRACE = true := by simp [semiOk, inBody, hs]
  rw [semiRun, if_pos e1, hp, semiRun_append, hstmts _ _ (by decide) (by simp [NE.list])]
  rfl

theorem semi_run_table (t : TableDecl) {p : TT} (hp : Between p) :
    semiRun (false, p) (tys t.toks) = some (false, .R_BRACE) := by
  have : t.toks = kw .TABLE_ :: (idTok t.name :: kw .L_BRACE :: ((t.columns.toks ColDecl.toks ++
      t.items.flatMap (fun i => kw .COMMA :: i.toks) ++ (if t.trailingComma then [kw .COMMA] else [])) ++
      [kw .R_BRACE])) := by simp [TableDecl.toks]
  rw [this, semi_run_first hp (by decide) (by decide)]
  show semiRun (false, .TABLE_) (TT.IDENTIFIER :: TT.L_BRACE :: tys (_ ++ [kw .R_BRACE])) = _
  have e := semi_run_plain (st := false) (p := .L_BRACE) (plain_columns t) (by decide)
  rw [tys_append]
  simp only [semiRun]
  rw [if_pos (by decide), if_pos (by decide), show semiNext (semiNext false .TABLE_ .IDENTIFIER) .IDENTIFIER .L_BRACE = false by decide,
    semiRun_append, e]
  generalize hq : (tys _).getLast?.getD TT.L_BRACE = q
  have hqs : q ≠ .SCOL := by
    subst hq
    cases hx : (tys (t.columns.toks ColDecl.toks ++
      t.items.flatMap (fun i => kw .COMMA :: i.toks) ++ (if t.trailingComma then [kw .COMMA] else []))).getLast? with
    | none => decide
    | some z =>
      obtain ⟨u, hu, rfl⟩ := List.mem_map.1 (List.mem_of_getLast? hx)
      exact (plain_columns t u hu).1
  simp [semiRun, semiOk, semiNext, hqs, kw]

theorem semi_run_init (b : NE Stmt) {p : TT} (hp : Between p) :
    semiRun (false, p) (tys (Decl.init b).toks) = some (false, .R_BRACE) := by
  have : (Decl.init b).toks = kw .INIT_ :: ([kw .L_PAREN, kw .R_PAREN] ++ bodyToks b) := by simp [Decl.toks]
  rw [this, semi_run_first hp (by decide) (by decide), tys_append, semiRun_append]
  have e : semiRun (false, (kw .INIT_).ty) (tys [kw .L_PAREN, kw .R_PAREN]) = some (false, .R_PAREN) := by decide
  rw [e]
  exact semi_run_body b (by decide) (by decide)

theorem semi_run_action (a : ActionDecl) {p : TT} (hp : Between p) :
    semiRun (false, p) (tys a.toks) = some (false, .R_BRACE) := by
  have hvar : ∀ x, PlainTT (varTok x).ty := fun _ => show PlainTT TT.PARAM_OR_VAR by decide
  have hrest : PlainToks ([idTok a.name, kw .L_PAREN] ++ a.params.toks (fun s => [varTok s]) ++ [kw .R_PAREN]) :=
    .append (.append (.cons (show PlainTT TT.IDENTIFIER by decide) (plain_one (by decide)))
      (plain_comma fun s => plain_one (hvar s))) (plain_one (by decide))
  have hmods : PlainToks (a.modifiers.map Modifier.tok) := by
    intro t ht
    obtain ⟨m, _, rfl⟩ := List.mem_map.1 ht
    cases m <;> decide
  have hann : PlainToks (a.annotations.flatMap Annot.toks) := by
    refine .flatMap fun x _ => ?_
    exact .append (.append (.cons (show PlainTT TT.BLOCK_VAR_OR_ANNOTATION by decide) (plain_one (by decide)))
      (plain_ne fun p => plain_pair (by decide) p)) (plain_one (by decide))
  generalize hpre : a.annotations.flatMap Annot.toks ++ (kw .ACTION_ :: ([idTok a.name, kw .L_PAREN] ++
    a.params.toks (fun s => [varTok s]) ++ [kw .R_PAREN] ++ a.modifiers.map Modifier.tok)) = pre
  have hpl : PlainToks pre := by
    rw [← hpre]
    exact .append hann (.cons (by decide) (.append hrest hmods))
  have e : a.toks = pre ++ bodyToks a.body := by rw [← hpre]; simp [ActionDecl.toks]
  have hopen : semiNext false ((tys pre).getLast?.getD p) .L_BRACE = true ∧ (tys pre).getLast?.getD p ≠ .SCOL := by
    rw [← hpre]
    cases hm : a.modifiers.reverse with
    | nil =>
      have : a.modifiers = [] := by simpa using hm
      rw [this]
      have : (tys (a.annotations.flatMap Annot.toks ++ (kw .ACTION_ :: ([idTok a.name, kw .L_PAREN] ++
          a.params.toks (fun s => [varTok s]) ++ [kw .R_PAREN] ++ [])))).getLast?.getD p = .R_PAREN := by
        simp [List.getLast?_append, List.getLast?_cons, kw]
      rw [List.map_nil, this]
      decide
    | cons m ms =>
      have : a.modifiers = ms.reverse ++ [m] := by
        have := congrArg List.reverse hm
        simpa using this
      rw [this]
      have : (tys (a.annotations.flatMap Annot.toks ++ (kw .ACTION_ :: ([idTok a.name, kw .L_PAREN] ++
          a.params.toks (fun s => [varTok s]) ++ [kw .R_PAREN] ++ (ms.reverse ++ [m]).map Modifier.tok)))).getLast?.getD p =
          m.tok.ty := by
        simp [List.getLast?_append, List.getLast?_cons]
      rw [this]
      cases m <;> decide
  have hne : ∃ t l, pre = t :: l ∧ inBody t.ty = false := by
    rw [← hpre]
    cases a.annotations with
    | nil => exact ⟨_, _, rfl, by decide⟩
    | cons x xs => exact ⟨_, _, rfl, by simp; decide⟩
  obtain ⟨t, l, rfl, ht⟩ := hne
  have hpt := hpl t (by simp)
  rw [e, tys_append, semiRun_append, semi_run_first hp ht hpt,
    semi_run_plain (fun u hu => hpl u (by simp [hu])) hpt.1]
  have hlast : (tys l).getLast?.getD t.ty = (tys (t :: l)).getLast?.getD p := by
    cases l <;> simp [List.getLast?_cons]
  rw [hlast]
  exact semi_run_body a.body hopen.1 hopen.2

theorem semi_run_ext (e : ExtDecl) {p : TT} (hp : Between p) :
    semiRun (false, p) (tys e.toks) = some (false, .SCOL) := by
  cases hc : e.config with
  | none =>
    have : e.toks = kw .USE_ :: [idTok e.name, kw .AS_, idTok e.alias, kw .SCOL] := by simp [ExtDecl.toks, hc]
    rw [this, semi_run_first hp (by decide) (by decide)]
    show semiRun (false, .USE_) [TT.IDENTIFIER, .AS_, .IDENTIFIER, .SCOL] = _
    decide
  | some c =>
    have hcfg : PlainToks (c.toks (Pair.toks .COL)) := plain_ne fun p => plain_pair (by decide) p
    have : e.toks = kw .USE_ :: (idTok e.name :: kw .L_BRACE :: (c.toks (Pair.toks .COL) ++
        [kw .R_BRACE, kw .AS_, idTok e.alias, kw .SCOL])) := by simp [ExtDecl.toks, hc]
    rw [this, semi_run_first hp (by decide) (by decide)]
    show semiRun (false, .USE_) (TT.IDENTIFIER :: TT.L_BRACE :: tys (_ ++ _)) = _
    rw [tys_append]
    simp only [semiRun]
    rw [if_pos (by decide), if_pos (by decide), show semiNext (semiNext false .USE_ .IDENTIFIER) .IDENTIFIER .L_BRACE = false by decide,
      semiRun_append, semi_run_plain hcfg (by decide)]
    generalize hq : (tys _).getLast?.getD TT.L_BRACE = q
    have hqs : q ≠ .SCOL := by
      subst hq
      cases hx : (tys (c.toks (Pair.toks .COL))).getLast? with
      | none => decide
      | some z =>
        obtain ⟨u, hu, rfl⟩ := List.mem_map.1 (List.mem_of_getLast? hx)
        exact (hcfg u hu).1
    simp [semiRun, semiOk, semiNext, hqs, kw, idTok]

theorem semi_run_program (p : Program) : ∃ q, semiRun (false, .EOF) (tys p.toks) = some (false, q) := by
  have hmany : ∀ {α : Type} (f : α → List Tok)
      (_ : ∀ x p, Between p → ∃ q, Between q ∧ semiRun (false, p) (tys (f x)) = some (false, q))
      (l : List α) (p : TT), Between p →
      ∃ q, Between q ∧ semiRun (false, p) (tys (l.flatMap f)) = some (false, q) := by
    intro α f hf l
    induction l with
    | nil => intro p hp; exact ⟨p, hp, rfl⟩
    | cons x l ih =>
      intro p hp
      obtain ⟨q, hq, e⟩ := hf x p hp
      obtain ⟨r, hr, e'⟩ := ih q hq
      refine ⟨r, hr, ?_⟩
      have : tys ((x :: l).flatMap f) = tys (f x) ++ tys (l.flatMap f) := by simp
      rw [this, semiRun_append, e]
      exact e'
  obtain ⟨q, hq, e⟩ := hmany ExtDecl.toks (fun x p hp => ⟨_, .inl rfl, semi_run_ext x hp⟩) p.exts .SCOL (.inl rfl)
  obtain ⟨r, _, e'⟩ := hmany Decl.toks (fun x p hp => ⟨_, .inr rfl, by
    cases x with
    | table t => exact semi_run_table t hp
    | action a => exact semi_run_action a hp
    | init b => exact semi_run_init b hp⟩) p.decls q hq
  refine ⟨r, ?_⟩
  have : tys p.toks = [TT.DATABASE_, .IDENTIFIER, .SCOL] ++ (tys (p.exts.flatMap ExtDecl.toks) ++
      tys (p.decls.flatMap Decl.toks)) := by simp [Program.toks, kw, idTok]
  rw [this, semiRun_append]
  have e0 : semiRun (false, .EOF) [TT.DATABASE_, .IDENTIFIER, .SCOL] = some (false, .SCOL) := by decide
  rw [e0]
  show semiRun (false, .SCOL) _ = _
  rw [semiRun_append, e]
  exact e'

theorem semi_types {a b : TT} {st : Bool} (hu : a ≠ .SQL_STMT) (p1 : semiPair a .SCOL = true)
    (h1 : semiOk st a .SCOL = true) (p2 : semiPair .SCOL b = true) (h2 : semiOk st .SCOL b = true)
    (p3 : semiPair a b = true) (h3 : semiOk st a b = true) : False := by
  have ha : a = .IDENTIFIER ∨ a = .R_PAREN := by
    revert p1 hu
    cases a <;> decide
  rcases ha with rfl | rfl
  · cases st with
    | true => exact absurd h1 (by decide)
    | false =>
      revert h2 h3 p2 p3
      cases b <;> decide
  · cases st with
    | false => exact absurd h1 (by decide)
    | true =>
      revert h2 h3 p2 p3
      cases b <;> decide

/-- Of two lists of tokens that differ by one `;`, not after an SQL statement,
at most one is a program. -/
theorem semi_edit {pre post : List Tok} {x : Tok} (hx : x.ty = .SCOL) {p q : Program}
    (hp : p.toks = pre ++ x :: post) (hq : q.toks = pre ++ post)
    (hl : ∀ t, pre.getLast? = some t → t.ty ≠ .SQL_STMT) : False := by
  have cp := semi_pairs p.sentence
  have cq := semi_pairs q.sentence
  obtain ⟨_, rp⟩ := semi_run_program p
  obtain ⟨_, rq⟩ := semi_run_program q
  obtain ⟨_, c, hlast, hc⟩ := Program.toks_last q
  rw [hp] at cp rp
  rw [hq] at cq rq hlast
  rcases List.eq_nil_or_concat pre with rfl | ⟨m, u, rfl⟩
  · have : semiRun (false, .EOF) (x.ty :: tys post) = none := by
      rw [hx, semiRun, if_neg (by decide)]
    rw [List.nil_append] at rp
    have e : tys (x :: post) = x.ty :: tys post := rfl
    rw [e, this] at rp
    cases rp
  rw [List.concat_eq_append] at cp cq rp rq hlast hl
  have hu := hl u (by simp)
  have p1 : semiPair u.ty x.ty = true := by
    rw [List.append_assoc] at cp
    exact chain_infix cp
  rw [tys_append, semiRun_append] at rp rq
  cases hr : semiRun (false, .EOF) (tys (m ++ [u])) with
  | none => rw [hr] at rp; cases rp
  | some sp =>
    obtain ⟨st, z⟩ := sp
    have hz := semiRun_last hr
    rw [tys_last] at hz
    simp only at hz
    subst hz
    rw [hr] at rp rq
    simp only [Option.bind_some] at rp rq
    have e : tys (x :: post) = .SCOL :: tys post := by rw [← hx]; rfl
    rw [e, semiRun] at rp
    rw [hx] at p1
    split at rp
    · rename_i h1
      cases post with
      | nil =>
        rw [List.append_nil] at hlast
        have := (List.append_inj' hlast rfl).2
        simp only [List.cons.injEq, and_true] at this
        subst this
        rcases hc with rfl | rfl <;> exact absurd p1 (by decide)
      | cons b post =>
        have e2 : tys (b :: post) = b.ty :: tys post := rfl
        rw [e2] at rp rq
        have p2 : semiPair .SCOL b.ty = true := by
          have e3 : m ++ [u] ++ x :: b :: post = (m ++ [u]) ++ x :: b :: post := rfl
          rw [e3] at cp
          have := chain_infix cp
          rwa [hx] at this
        have p3 : semiPair u.ty b.ty = true := by
          rw [List.append_assoc] at cq
          exact chain_infix cq
        have h2 : semiOk (semiNext st u.ty .SCOL) .SCOL b.ty = true := by
          rw [semiRun] at rp
          split at rp
          · assumption
          · cases rp
        have h3 : semiOk st u.ty b.ty = true := by
          rw [semiRun] at rq
          split at rq
          · assumption
          · cases rq
        have e4 : semiNext st u.ty .SCOL = st := by simp [semiNext]
        rw [e4] at h2
        exact semi_types hu p1 h1 p2 h2 p3 h3
    · cases rp

end Verif
