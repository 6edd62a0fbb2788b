import Verif.Spec.CommandLine
import Verif.Model.ParseKF
import Verif.Model.Cli
/-!
# C49: how the command line is read
-/

namespace Verif

/-- The settings that reading gives, as a request. -/
def Flags.request (f : Flags) : Request := ⟨f.trace, f.version, f.help, f.output, f.args⟩

def Request.flags (r : Request) : Flags :=
  { trace := r.trace, version := r.version, help := r.help, output := r.output, args := r.args }

theorem boolWord_iff {v : Str} {b : Bool} : BoolWord v b ↔ parseBool v = some b := by
  unfold parseBool BoolWord
  constructor
  · intro h
    cases b with
    | true => exact if_pos h
    | false =>
      refine (if_neg ?_).trans (if_pos h)
      intro h'
      simp only [Bool.false_eq_true, if_false, List.map_cons, List.map_nil, List.mem_cons,
        List.not_mem_nil, or_false] at h h'
      rcases h with rfl | rfl | rfl | rfl | rfl | rfl <;> revert h' <;> decide
  · intro h
    split at h
    · cases h; assumption
    · split at h
      · cases h; assumption
      · cases h

def Switch.flag : Switch → FlagName
  | .trace => .trace
  | .version => .version
  | .help => .help

theorem setFlag_switch (f : Flags) (o : Switch) {v : Str} {b : Bool} (h : BoolWord v b) :
    ∃ f', setFlag f o.flag v = some f' ∧ f'.request = f.request.switch o b := by
  rw [boolWord_iff] at h
  cases o <;> simp only [Switch.flag, setFlag, h, Option.map_some] <;> exact ⟨_, rfl, rfl⟩

theorem setFlag_inv {f f' : Flags} {o : Switch} {v : Str} (h : setFlag f o.flag v = some f') :
    ∃ b, BoolWord v b ∧ f'.request = f.request.switch o b := by
  cases o <;> simp only [Switch.flag, setFlag, Option.map_eq_some_iff] at h <;>
  · obtain ⟨b, hb, rfl⟩ := h
    exact ⟨b, boolWord_iff.2 hb, rfl⟩

theorem short_cases (c : Char) :
    (∃ o : Switch, c = o.letter ∧ FlagName.short c = some o.flag) ∨
    (c = 'o' ∧ FlagName.short c = some .output) ∨ FlagName.short c = none := by
  by_cases h₁ : c = 't'
  · exact .inl ⟨.trace, h₁, by subst h₁; rfl⟩
  by_cases h₂ : c = 'v'
  · exact .inl ⟨.version, h₂, by subst h₂; rfl⟩
  by_cases h₃ : c = 'h'
  · exact .inl ⟨.help, h₃, by subst h₃; rfl⟩
  by_cases h₄ : c = 'o'
  · exact .inr (.inl ⟨h₄, by subst h₄; rfl⟩)
  · right; right
    unfold FlagName.short
    rw [if_neg h₁, if_neg h₂, if_neg h₄, if_neg h₃]

theorem switch_bool (o : Switch) : o.flag.isBool = true := by cases o <;> rfl

/-- Reading a group of letters. -/
theorem group_sound : ∀ (s : Str) (f f' : Flags) (rest rest' : List Str),
    shortFlags f s rest = .ok (f', rest') →
    ∃ (os : List Switch) (e : GroupEnd), e.Ok ∧ s = os.map Switch.letter ++ e.text ∧ rest = e.next ++ rest' ∧
      f'.request = e.apply (os.foldl (fun r o => r.switch o true) f.request) := by
  intro s
  induction s with
  | nil =>
    intro f f' rest rest' h
    simp only [shortFlags, Except.ok.injEq, Prod.mk.injEq] at h
    obtain ⟨rfl, rfl⟩ := h
    exact ⟨[], .plain, trivial, rfl, rfl, rfl⟩
  | cons c s ih =>
    intro f f' rest rest' h
    rw [shortFlags.eq_def] at h
    simp only at h
    split at h
    · rename_i ht
      cases h
      obtain ⟨u, hu⟩ := List.isPrefixOf_iff_prefix.1 ht
      exact ⟨[], .ignored u, trivial, hu.symm, rfl, rfl⟩
    · rcases short_cases c with ⟨o, rfl, hs⟩ | ⟨rfl, hs⟩ | hs
      · rw [hs] at h
        simp only at h
        split at h
        · rename_i d v _
          split at h
          · rename_i f₁ hf
            cases h
            obtain ⟨b, hb, hr⟩ := setFlag_inv hf
            exact ⟨[], .value o (d :: v) b, hb, rfl, rfl, hr⟩
          · cases h
        · rw [if_pos (switch_bool o)] at h
          split at h
          · rename_i f₁ hf
            obtain ⟨b, hb, hr⟩ := setFlag_inv hf
            have hb' : b = true := by
              have := boolWord_iff.1 hb
              have e : parseBool "true".toList = some true := by decide
              rw [e] at this; cases this; rfl
            subst hb'
            obtain ⟨os, e, h₁, h₂, h₃, h₄⟩ := ih _ _ _ _ h
            refine ⟨o :: os, e, h₁, by rw [h₂]; rfl, h₃, ?_⟩
            rw [h₄, hr]; rfl
          · cases h
      · rw [hs] at h
        simp only [setFlag, FlagName.isBool, Bool.false_eq_true, if_false] at h
        split at h
        · rename_i d v _
          cases h
          exact ⟨[], .outEq (d :: v), by simp [GroupEnd.Ok], rfl, rfl, rfl⟩
        · rename_i hne
          split at h
          · rename_i d v _
            cases h
            refine ⟨[], .outJoined (d :: v), ⟨by simp, ?_⟩, rfl, rfl, rfl⟩
            rintro ⟨x, y, hxy⟩
            exact hne x y hxy
          · cases h
            exact ⟨[], .outNext _, trivial, rfl, rfl, rfl⟩
          · cases h
      · rw [hs] at h
        cases h

/-- A group of letters is read as it is written. -/
theorem group_complete : ∀ (os : List Switch) (e : GroupEnd) (f : Flags) (rest : List Str), e.Ok →
    ∃ f', shortFlags f (os.map Switch.letter ++ e.text) (e.next ++ rest) = .ok (f', rest) ∧
      f'.request = e.apply (os.foldl (fun r o => r.switch o true) f.request) := by
  intro os
  have htest : ∀ (c : Char) (s : Str), (c ≠ 't' ∨ s.head? ≠ some 'e') →
      "test.".toList.isPrefixOf (c :: s) = false := by
    intro c s h
    show (('t' == c) && _) = false
    rcases h with h | h
    · have : ('t' == c) = false := by simpa using fun e => h e.symm
      rw [this]; rfl
    · cases s with
      | nil => simp
      | cons d s =>
        have : ('e' == d) = false := by simp at h; simpa using fun e => h e.symm
        show (('t' == c) && (('e' == d) && _)) = false
        rw [this]; simp
  have hshort : ∀ o : Switch, FlagName.short o.letter = some o.flag := by intro o; cases o <;> rfl
  induction os with
  | nil =>
    intro e f rest h
    cases e with
    | plain => exact ⟨f, rfl, rfl⟩
    | value o v b =>
      obtain ⟨f', hf, hr⟩ := setFlag_switch f o h
      refine ⟨f', ?_, hr⟩
      have hv : ∃ d v', v = d :: v' := by
        cases v with
        | nil =>
          have h : BoolWord [] b := h
          exact absurd (boolWord_iff.1 h) (by cases b <;> decide)
        | cons d v' => exact ⟨d, v', rfl⟩
      obtain ⟨d, v', rfl⟩ := hv
      show shortFlags f (o.letter :: '=' :: d :: v') rest = _
      rw [shortFlags.eq_def]
      simp only [htest _ ('=' :: d :: v') (.inr (by simp)), hshort, hf, Bool.false_eq_true, if_false]
    | outNext d =>
      refine ⟨{ f with output := d }, ?_, rfl⟩
      rfl
    | outJoined d =>
      refine ⟨{ f with output := d }, ?_, rfl⟩
      obtain ⟨hne, hq⟩ := h
      show shortFlags f ('o' :: d) rest = _
      rw [shortFlags.eq_def]
      simp only [htest 'o' d (.inl (by decide)), Bool.false_eq_true, if_false]
      have hs : FlagName.short 'o' = some .output := rfl
      rw [hs]
      simp only [setFlag, FlagName.isBool, Bool.false_eq_true, if_false]
      split
      · exact absurd ⟨_, _, rfl⟩ hq
      · cases d with
        | nil => exact absurd rfl hne
        | cons => rfl
    | outEq d =>
      refine ⟨{ f with output := d }, ?_, rfl⟩
      cases d with
      | nil => exact absurd rfl h
      | cons c d =>
        show shortFlags f ('o' :: '=' :: c :: d) rest = _
        rw [shortFlags.eq_def]
        simp only [htest 'o' ('=' :: c :: d) (.inl (by decide)), Bool.false_eq_true, if_false]
        rfl
    | ignored s =>
      refine ⟨f, ?_, rfl⟩
      have : "test.".toList.isPrefixOf ("test.".toList ++ s) = true :=
        List.isPrefixOf_iff_prefix.2 ⟨s, rfl⟩
      show shortFlags f ('t' :: "est.".toList ++ s) rest = _
      rw [List.cons_append, shortFlags.eq_def]
      exact if_pos this
  | cons o os ih =>
    intro e f rest h
    obtain ⟨f₁, hf, hr⟩ := setFlag_switch f o (v := "true".toList) (b := true) (by
      rw [boolWord_iff]; decide)
    obtain ⟨f', h₁, h₂⟩ := ih e f₁ rest h
    refine ⟨f', ?_, by rw [h₂, hr]; rfl⟩
    rw [List.map_cons, List.cons_append, shortFlags.eq_def]
    -- the next letter
    have hnext : ∀ x, (os.map Switch.letter ++ e.text).head? = some x → x ≠ 'e' ∧ x ≠ '=' := by
      intro x hx
      cases os with
      | cons o' os =>
        simp at hx
        subst hx
        cases o' <;> decide
      | nil =>
        cases e with
        | plain => simp [GroupEnd.text] at hx
        | value o' v b => simp [GroupEnd.text] at hx; subst hx; cases o' <;> decide
        | outNext d => simp [GroupEnd.text] at hx; subst hx; decide
        | outJoined d => simp [GroupEnd.text] at hx; subst hx; decide
        | outEq d => simp [GroupEnd.text] at hx; subst hx; decide
        | ignored s =>
          have : x = 't' := by simpa [GroupEnd.text] using hx.symm
          subst this; decide
    simp only
    rw [htest _ _ (.inr fun hx => (hnext _ hx).1 rfl), hshort]
    simp only [Bool.false_eq_true, if_false, hf, switch_bool, if_true]
    generalize os.map Switch.letter ++ e.text = t at h₁ hnext
    split
    · rename_i d v heq
      exact absurd rfl (hnext '=' rfl).2
    · exact h₁

/-- `--name` and `--name=value`. -/
theorem long_cases (n : Str) :
    (∃ o : Switch, n = o.name ∧ FlagName.long n = some o.flag) ∨
    (n = "output".toList ∧ FlagName.long n = some .output) ∨ FlagName.long n = none := by
  by_cases h₁ : n = "trace".toList
  · exact .inl ⟨.trace, h₁, by subst h₁; rfl⟩
  by_cases h₂ : n = "version".toList
  · exact .inl ⟨.version, h₂, by subst h₂; rfl⟩
  by_cases h₃ : n = "help".toList
  · exact .inl ⟨.help, h₃, by subst h₃; rfl⟩
  by_cases h₄ : n = "output".toList
  · exact .inr (.inl ⟨h₄, by subst h₄; rfl⟩)
  · right; right
    unfold FlagName.long
    simp only [if_neg h₁, if_neg h₂, if_neg h₄, if_neg h₃]

theorem takeWhile_split (p : Char → Bool) (s : Str) :
    s = s.takeWhile p ++ s.drop (s.takeWhile p).length := by
  induction s with
  | nil => rfl
  | cons c s ih =>
    rw [List.takeWhile_cons]
    split
    · simp only [List.length_cons, List.drop_succ_cons, List.cons_append]
      rw [← ih]
    · rfl

theorem drop_head (s : Str) {d : Char} {v : Str}
    (h : s.drop (s.takeWhile (fun c => decide (c ≠ '='))).length = d :: v) : d = '=' := by
  induction s with
  | nil => simp at h
  | cons c s ih =>
    rw [List.takeWhile_cons] at h
    split at h
    · simp only [List.length_cons, List.drop_succ_cons] at h
      exact ih h
    · rename_i hc
      simp only [List.length_nil, List.drop_zero, List.cons.injEq] at h
      rw [← h.1]
      simpa using hc

theorem long_sound {f f' : Flags} {name : Str} {rest rest' : List Str}
    (h : longFlag f name rest = .ok (f', rest')) :
    ∃ i : Item, i.Ok ∧ ("--".toList ++ name) :: rest = i.words ++ rest' ∧
      f'.request = i.apply f.request := by
  unfold longFlag at h
  split at h
  · cases h
  · simp only at h
    have hsplit := takeWhile_split (fun c => decide (c ≠ '=')) name
    have hd : ∀ d v, name.drop (name.takeWhile (fun c => decide (c ≠ '='))).length = d :: v → d = '=' :=
      fun d v => drop_head name
    generalize name.takeWhile (fun c => decide (c ≠ '=')) = key at h hsplit hd
    generalize name.drop key.length = tl at h hsplit hd
    subst hsplit
    rcases long_cases key with ⟨o, rfl, hk⟩ | ⟨rfl, hk⟩ | hk
    · rw [hk] at h
      simp only at h
      split at h
      · rename_i d v _
        split at h
        · rename_i f₁ hf
          cases h
          obtain ⟨b, hb, hr⟩ := setFlag_inv hf
          refine ⟨.longValue o v b, hb, ?_, hr⟩
          cases hd _ _ rfl
          simp [Item.words]
        · cases h
      · rw [if_pos (switch_bool o)] at h
        split at h
        · rename_i f₁ hf
          cases h
          obtain ⟨b, hb, hr⟩ := setFlag_inv hf
          have hb' : b = true := by
            have := boolWord_iff.1 hb
            have e : parseBool "true".toList = some true := by decide
            rw [e] at this; cases this; rfl
          subst hb'
          exact ⟨.long o, trivial, by simp [Item.words], hr⟩
        · cases h
    · rw [hk] at h
      simp only [setFlag, FlagName.isBool, Bool.false_eq_true, if_false] at h
      split at h
      · rename_i d v _
        cases h
        refine ⟨.outEq v, trivial, ?_, rfl⟩
        cases hd _ _ rfl
        simp [Item.words]
      · split at h
        · cases h
          exact ⟨.outNext _, trivial, by simp [Item.words], rfl⟩
        · cases h
    · rw [hk] at h
      cases h

theorem key_of (k v : Str) (hk : '=' ∉ k) :
    (k ++ v).takeWhile (fun c => decide (c ≠ '=')) =
      k ++ v.takeWhile (fun c => decide (c ≠ '=')) := by
  induction k with
  | nil => rfl
  | cons c k ih =>
    simp only [List.mem_cons, not_or] at hk
    rw [List.cons_append, List.takeWhile_cons, if_pos (by simpa using fun e => hk.1 e.symm), ih hk.2]
    rfl

theorem switch_name (o : Switch) : '=' ∉ o.name ∧ o.name.head? ≠ some '-' ∧
    o.name.head? ≠ some '=' ∧ o.name ≠ [] ∧ FlagName.long o.name = some o.flag := by
  cases o <;> refine ⟨by decide, by decide, by decide, by decide, rfl⟩

theorem long_complete (f : Flags) (o : Switch) (rest : List Str) :
    ∃ f', longFlag f o.name rest = .ok (f', rest) ∧ f'.request = f.request.switch o true := by
  obtain ⟨h₁, h₂, h₃, h₄, h₅⟩ := switch_name o
  obtain ⟨f', hf, hr⟩ := setFlag_switch f o (v := "true".toList) (b := true) (by
    rw [boolWord_iff]; decide)
  refine ⟨f', ?_, hr⟩
  have hk := key_of o.name [] h₁
  rw [List.append_nil, List.takeWhile_nil, List.append_nil] at hk
  unfold longFlag
  rw [if_neg (by simp [h₂, h₃])]
  simp only [hk, h₅, List.drop_length, switch_bool, if_true, hf]

theorem longValue_complete (f : Flags) (o : Switch) {v : Str} {b : Bool} (hb : BoolWord v b)
    (rest : List Str) :
    ∃ f', longFlag f (o.name ++ '=' :: v) rest = .ok (f', rest) ∧
      f'.request = f.request.switch o b := by
  obtain ⟨h₁, h₂, h₃, h₄, h₅⟩ := switch_name o
  obtain ⟨f', hf, hr⟩ := setFlag_switch f o hb
  refine ⟨f', ?_, hr⟩
  have hk := key_of o.name ('=' :: v) h₁
  rw [List.takeWhile_cons, if_neg (by simp), List.append_nil] at hk
  have hh : (o.name ++ '=' :: v).head? = o.name.head? := by
    cases hn : o.name with
    | nil => exact absurd hn h₄
    | cons => rfl
  unfold longFlag
  rw [if_neg (by rw [hh]; simp [h₂, h₃])]
  simp only [hk, h₅, List.drop_left', hf]

theorem outEq_complete (f : Flags) (d : Str) (rest : List Str) :
    longFlag f ("output".toList ++ '=' :: d) rest = .ok ({ f with output := d }, rest) := by
  have hk := key_of "output".toList ('=' :: d) (by decide)
  rw [List.takeWhile_cons, if_neg (by simp), List.append_nil] at hk
  unfold longFlag
  have hh : ("output".toList ++ '=' :: d).head? = some 'o' := rfl
  rw [if_neg (by rw [hh]; decide)]
  have h₅ : FlagName.long "output".toList = some .output := rfl
  simp only [hk, h₅, List.drop_left', setFlag]

theorem Item.words_ne (i : Item) : 1 ≤ i.words.length := by
  cases i <;> simp [Item.words]

/-- The request after more items and arguments. -/
def Request.after (r : Request) (items : List Item) (tail : Option (List Str)) : Request :=
  let r' := items.foldl Item.apply r
  { r' with args := r'.args ++ tail.getD [] }

theorem args_sound : ∀ (n : Nat) (f f' : Flags) (argv : List Str), argv.length ≤ n →
    parseArgs n f argv = .ok f' →
    ∃ items tail, WrittenAs argv items tail ∧ f'.request = f.request.after items tail := by
  intro n
  induction n with
  | zero =>
    intro f f' argv hn h
    have : argv = [] := List.length_eq_zero_iff.1 (Nat.le_zero.1 hn)
    subst this
    simp only [parseArgs, FlagResult.ok.injEq] at h
    subst h
    exact ⟨[], none, ⟨by simp, rfl⟩, by simp [Request.after]⟩
  | succ n ih =>
    intro f f' argv hn h
    cases argv with
    | nil =>
      simp only [parseArgs, FlagResult.ok.injEq] at h
      subst h
      exact ⟨[], none, ⟨by simp, rfl⟩, by simp [Request.after]⟩
    | cons s rest =>
      have step : ∀ (i : Item) (f₁ : Flags) (rest' : List Str), i.Ok →
          s :: rest = i.words ++ rest' → f₁.request = i.apply f.request →
          parseArgs n f₁ rest' = .ok f' →
          ∃ items tail, WrittenAs (s :: rest) items tail ∧
            f'.request = f.request.after items tail := by
        intro i f₁ rest' hi hw hr h'
        have hl : rest'.length ≤ n := by
          have h₁ := congrArg List.length hw
          have h₂ := i.words_ne
          simp only [List.length_append, List.length_cons] at h₁ hn
          omega
        obtain ⟨items, tail, ⟨h₁, h₂⟩, h₃⟩ := ih f₁ f' rest' hl h'
        refine ⟨i :: items, tail, ⟨?_, ?_⟩, ?_⟩
        · intro j hj
          rcases List.mem_cons.1 hj with rfl | hj
          · exact hi
          · exact h₁ j hj
        · rw [hw, h₂, List.flatMap_cons, List.append_assoc]
        · rw [h₃, hr]; rfl
      rw [parseArgs.eq_def] at h
      simp only at h
      split at h
      · cases h
        exact ⟨[], some rest, ⟨by simp, rfl⟩, rfl⟩
      · split at h
        · rename_i name _ _ f₁ rest' hl
          obtain ⟨i, hi, hw, hr⟩ := long_sound hl
          exact step i f₁ rest' hi hw hr h
        · cases h
      · split at h
        · rename_i c s' _ _ _ f₁ rest' hl
          obtain ⟨os, e, h₁, h₂, h₃, h₄⟩ := group_sound _ _ _ _ _ hl
          refine step (.group os e) f₁ rest' ⟨h₁, by rw [← h₂]; simp⟩ ?_ h₄ h
          rw [h₃]
          simp only [Item.words, List.append_assoc, ← h₂]
          rfl
        · cases h
      · rename_i h₁ h₂ h₃
        refine step (.arg s) _ rest ?_ rfl rfl h
        show s = "-".toList ∨ s.head? ≠ some '-'
        match s, h₃ with
        | [], _ => exact .inr (by simp)
        | ['-'], _ => exact .inl rfl
        | c :: s, h₃ =>
          by_cases hc : c = '-'
          · subst hc
            cases s with
            | nil => exact .inl rfl
            | cons d s => exact absurd rfl (h₃ d s)
          · exact .inr (by simpa using hc)

theorem long_step (n : Nat) (f : Flags) (name : Str) (rest : List Str) (hn : name ≠ []) :
    parseArgs (n + 1) f (("--".toList ++ name) :: rest) =
      match longFlag f name rest with
      | .ok (f', rest') => parseArgs n f' rest'
      | .error m => .error m := by
  cases name with
  | nil => exact absurd rfl hn
  | cons c s => rfl

theorem group_step (n : Nat) (f : Flags) (c : Char) (s : Str) (rest : List Str) (hc : c ≠ '-') :
    parseArgs (n + 1) f (('-' :: c :: s) :: rest) =
      match shortFlags f (c :: s) rest with
      | .ok (f', rest') => parseArgs n f' rest'
      | .error m => .error m := by
  rw [parseArgs.eq_def]
  simp only
  split
  · rename_i h; simp at h; exact absurd h.1 hc
  · rename_i h; simp at h; exact absurd h.1 hc
  · rename_i h; simp at h; obtain ⟨rfl, rfl⟩ := h; rfl
  · rename_i h; exact absurd rfl (h c s)

theorem arg_step (n : Nat) (f : Flags) (s : Str) (rest : List Str)
    (h : s = "-".toList ∨ s.head? ≠ some '-') :
    parseArgs (n + 1) f (s :: rest) = parseArgs n { f with args := f.args ++ [s] } rest := by
  rcases h with rfl | h
  · rfl
  · rw [parseArgs.eq_def]
    simp only
    split
    · simp at h
    · simp at h
    · simp at h
    · rfl

theorem args_complete : ∀ (items : List Item) (tail : Option (List Str)) (n : Nat) (f : Flags)
    (argv : List Str), argv.length ≤ n → WrittenAs argv items tail →
    ∃ f', parseArgs n f argv = .ok f' ∧ f'.request = f.request.after items tail := by
  intro items
  induction items with
  | nil =>
    intro tail n f argv hn ⟨_, h⟩
    cases tail with
    | none =>
      simp only [List.flatMap_nil, List.append_nil, tailWords] at h
      subst h
      exact ⟨f, by cases n <;> rfl, by simp [Request.after]⟩
    | some t =>
      simp only [List.flatMap_nil, List.nil_append, tailWords] at h
      subst h
      cases n with
      | zero => simp at hn
      | succ n => exact ⟨_, rfl, rfl⟩
  | cons i items ih =>
    intro tail n f argv hn ⟨hok, h⟩
    rw [List.flatMap_cons, List.append_assoc] at h
    generalize hr : items.flatMap Item.words ++ tailWords tail = rest at h
    have hlen := i.words_ne
    have hl := congrArg List.length h
    rw [List.length_append] at hl
    obtain ⟨n, rfl⟩ : ∃ m, n = m + 1 := ⟨n - 1, by omega⟩
    have hi := hok i (.head _)
    suffices hs : ∃ f₁, parseArgs (n + 1) f argv = parseArgs n f₁ rest ∧
        f₁.request = i.apply f.request by
      obtain ⟨f₁, h₁, h₂⟩ := hs
      obtain ⟨f', h₃, h₄⟩ := ih tail n f₁ rest (by omega)
        ⟨fun j hj => hok j (.tail _ hj), hr.symm⟩
      exact ⟨f', h₁.trans h₃, by rw [h₄, h₂]; rfl⟩
    subst h
    cases i with
    | arg s => exact ⟨_, arg_step n f s rest hi, rfl⟩
    | long o =>
      obtain ⟨f₁, h₁, h₂⟩ := long_complete f o rest
      refine ⟨f₁, ?_, h₂⟩
      show parseArgs (n + 1) f (("--".toList ++ o.name) :: rest) = _
      rw [long_step n f _ rest (switch_name o).2.2.2.1, h₁]
    | longValue o v b =>
      obtain ⟨f₁, h₁, h₂⟩ := longValue_complete f o (v := v) (b := b) hi rest
      refine ⟨f₁, ?_, h₂⟩
      have e : Item.words (.longValue o v b) ++ rest = ("--".toList ++ (o.name ++ '=' :: v)) :: rest := by
        simp [Item.words]
      rw [e, long_step n f _ rest (by simp), h₁]
    | outNext d => exact ⟨{ f with output := d }, rfl, rfl⟩
    | outEq d =>
      refine ⟨{ f with output := d }, ?_, rfl⟩
      have e : Item.words (.outEq d) ++ rest = ("--".toList ++ ("output".toList ++ '=' :: d)) :: rest := by
        simp [Item.words]
      rw [e, long_step n f _ rest (by simp), outEq_complete]
    | group os e =>
      obtain ⟨f₁, h₁, h₂⟩ := group_complete os e f rest hi.1
      refine ⟨f₁, ?_, h₂⟩
      have hne := hi.2
      have hc : ∀ c s, os.map Switch.letter ++ e.text = c :: s → c ≠ '-' := by
        intro c s hx
        cases os with
        | cons o os =>
          simp only [List.map_cons, List.cons_append, List.cons.injEq] at hx
          rw [← hx.1]; cases o <;> decide
        | nil =>
          simp only [List.map_nil, List.nil_append] at hx
          cases e with
          | plain => cases hx
          | value o v b => cases hx; cases o <;> decide
          | outNext d => cases hx; decide
          | outJoined d => cases hx; decide
          | outEq d => cases hx; decide
          | ignored s => cases hx; decide
      show parseArgs (n + 1) f (("-".toList ++ os.map Switch.letter ++ e.text) :: (e.next ++ rest)) = _
      rw [List.append_assoc]
      generalize os.map Switch.letter ++ e.text = t at h₁ hne hc
      cases t with
      | nil => exact absurd rfl hne
      | cons c s =>
        show parseArgs (n + 1) f (('-' :: c :: s) :: (e.next ++ rest)) = _
        rw [group_step n f c s _ (hc c s rfl), h₁]

/-- C49: the command line is read as the items it is written with. -/
theorem C49_reading (argv : List Str) (r : Request) :
    (∃ f, readFlags argv = .ok f ∧ f.request = r) ↔
      ∃ items tail, WrittenAs argv items tail ∧ r = requestOf items tail := by
  constructor
  · rintro ⟨f, hf, rfl⟩
    exact args_sound _ _ _ _ (Nat.le_refl _) hf
  · rintro ⟨items, tail, hw, rfl⟩
    exact args_complete items tail _ {} argv (Nat.le_refl _) hw

/-- However the same words are written down as items, they say the same. -/
theorem C49_one_meaning {argv : List Str} {items items' : List Item} {tail tail' : Option (List Str)}
    (h : WrittenAs argv items tail) (h' : WrittenAs argv items' tail') :
    requestOf items tail = requestOf items' tail' := by
  obtain ⟨f, hf, hr⟩ := (C49_reading argv _).2 ⟨items, tail, h, rfl⟩
  obtain ⟨f', hf', hr'⟩ := (C49_reading argv _).2 ⟨items', tail', h', rfl⟩
  rw [hf] at hf'
  cases hf'
  exact hr.symm.trans hr'

/-- A command line that cannot be read so is an error: nothing is run. -/
theorem C49_unreadable (argv : List Str) :
    (∃ m, readFlags argv = .error m) ↔ ¬ ∃ items tail, WrittenAs argv items tail := by
  constructor
  · rintro ⟨m, hm⟩ ⟨items, tail, hw⟩
    obtain ⟨f, hf, _⟩ := (C49_reading argv _).2 ⟨items, tail, hw, rfl⟩
    rw [hm] at hf
    cases hf
  · intro h
    cases hr : readFlags argv with
    | error m => exact ⟨m, rfl⟩
    | ok f =>
      obtain ⟨items, tail, hw, _⟩ := (C49_reading argv _).1 ⟨f, hr, rfl⟩
      exact absurd ⟨items, tail, hw⟩ h

/-- What the command does with the request: help and version come first and
nothing else happens then; otherwise there has to be one argument, and the
output directory of the request is the one that is made. -/
theorem C49_effect (w : World) (sh : Bool) (os : OS) (fs : Files) {argv : List Str}
    {items : List Item} {tail : Option (List Str)} (h : WrittenAs argv items tail) :
    ((requestOf items tail).help = true →
      (runMain w sh os fs argv).exit = some 0 ∧ (runMain w sh os fs argv).files = fs ∧
      (runMain w sh os fs argv).mkdirs = [] ∧ (runMain w sh os fs argv).out = ["usage".toList]) ∧
    ((requestOf items tail).help = false → (requestOf items tail).version = true →
      (runMain w sh os fs argv).exit = some 0 ∧ (runMain w sh os fs argv).files = fs ∧
      (runMain w sh os fs argv).mkdirs = [] ∧
      (runMain w sh os fs argv).out = ["unknown-version".toList]) ∧
    ((requestOf items tail).help = false → (requestOf items tail).version = false →
      (requestOf items tail).args.length ≠ 1 →
      (runMain w sh os fs argv).exit = some 2 ∧ (runMain w sh os fs argv).files = fs ∧
      (runMain w sh os fs argv).mkdirs = []) ∧
    ((requestOf items tail).help = false → (requestOf items tail).version = false →
      (requestOf items tail).args.length = 1 →
      (runMain w sh os fs argv).mkdirs = [(requestOf items tail).output]) := by
  obtain ⟨f, hf, hr⟩ := (C49_reading argv _).2 ⟨items, tail, h, rfl⟩
  rw [← hr]
  simp only [runMain, hf, Flags.request]
  refine ⟨?_, ?_, ?_, ?_⟩
  · intro h₁
    simp [h₁, CodeOk]
  · intro h₁ h₂
    simp [h₁, h₂, runCmd, CodeOk]
  · intro h₁ h₂ h₃
    simp only [h₁, h₂, runCmd, Bool.false_eq_true, if_false]
    split
    · rename_i heq; rw [heq] at h₃; simp at h₃
    · exact ⟨rfl, rfl, rfl⟩
  · intro h₁ h₂ h₃
    simp only [h₁, h₂, runCmd, Bool.false_eq_true, if_false]
    split
    · split
      · rfl
      · split
        · rfl
        · split
          · rfl
          · split <;> rfl
    · rename_i hne
      match ha : f.args, h₃ with
      | [a], _ => exact absurd ha (hne a)

/-- A command line that cannot be read ends with code 1 and without effects. -/
theorem C49_no_effect (w : World) (sh : Bool) (os : OS) (fs : Files) {argv : List Str}
    (h : ¬ ∃ items tail, WrittenAs argv items tail) :
    (runMain w sh os fs argv).exit = some 1 ∧ (runMain w sh os fs argv).files = fs ∧
      (runMain w sh os fs argv).mkdirs = [] := by
  obtain ⟨m, hm⟩ := (C49_unreadable argv).2 h
  simp [runMain, hm, CodeFail]

namespace CommandLineSample

/-- `-tvo=out in.kf --version=F -ofin --output last -- -x` -/
def argv : List Str :=
  ["-tvo=out".toList, "in.kf".toList, "--version=F".toList, "-ofin".toList, "--output".toList,
    "last".toList, "--".toList, "-x".toList]

def items : List Item :=
  [.group [.trace, .version] (.outEq "out".toList), .arg "in.kf".toList,
    .longValue .version "F".toList false, .group [] (.outJoined "fin".toList),
    .outNext "last".toList]

/-- The hypotheses are met, with every kind of option. -/
example : WrittenAs argv items (some ["-x".toList]) ∧
    requestOf items (some ["-x".toList]) =
      ⟨true, false, false, "last".toList, ["in.kf".toList, "-x".toList]⟩ := by
  refine ⟨⟨?_, rfl⟩, rfl⟩
  intro i hi
  simp only [items, List.mem_cons, List.not_mem_nil, or_false] at hi
  rcases hi with rfl | rfl | rfl | rfl | rfl
  · refine ⟨?_, by decide⟩
    show "out".toList ≠ []
    decide
  · exact .inr (by decide)
  · show BoolWord _ _
    exact boolWord_iff.2 (by decide)
  · refine ⟨⟨by decide, ?_⟩, by decide⟩
    rintro ⟨c, s, h⟩
    have : 'f' = '=' := (List.cons.inj h).1
    revert this; decide
  · trivial

/-- There are unreadable command lines. -/
example : ¬ ∃ items tail, WrittenAs ["in.kf".toList, "--outptu".toList] items tail :=
  (C49_unreadable _).1 ⟨_, rfl⟩

example : ¬ ∃ items tail, WrittenAs ["in.kf".toList, "-to".toList] items tail :=
  (C49_unreadable _).1 ⟨_, rfl⟩

end CommandLineSample

end Verif
