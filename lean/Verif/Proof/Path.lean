import Verif.Model.Cli
import Verif.Spec.Path
/-!
# Lemmas on paths
-/

namespace Verif

theorem splitSlash_ne (s : Str) : splitSlash s ≠ [] := by
  cases s with
  | nil => simp [splitSlash]
  | cons c s =>
    rw [splitSlash]
    split
    · simp
    · split <;> simp

theorem splitSlash_slash (s : Str) : splitSlash ('/' :: s) = [] :: splitSlash s := by
  rw [splitSlash, if_pos rfl]

theorem splitSlash_other {c : Char} (h : c ≠ '/') (s : Str) : ∃ e es, splitSlash s = e :: es ∧
    splitSlash (c :: s) = (c :: e) :: es := by
  cases hs : splitSlash s with
  | nil => exact absurd hs (splitSlash_ne s)
  | cons e es => exact ⟨e, es, rfl, by rw [splitSlash, if_neg h, hs]⟩

/-- Walking is folding over the elements. -/
theorem walk_eq (D : Dirs) (s : Str) : ∀ (n : D.Node) (e : Str),
    ∃ x xs, splitSlash s = x :: xs ∧ D.walk n e s = xs.foldl D.elem (D.elem n (e ++ x)) := by
  induction s with
  | nil => intro n e; exact ⟨[], [], rfl, by simp [Dirs.walk]⟩
  | cons c s ih =>
    intro n e
    by_cases hc : c = '/'
    · subst hc
      obtain ⟨x, xs, h1, h2⟩ := ih (D.elem n e) []
      refine ⟨[], x :: xs, by rw [splitSlash_slash, h1], ?_⟩
      rw [Dirs.walk, if_pos rfl, h2]
      simp
    · obtain ⟨x, xs, h1, h2⟩ := ih n (e ++ [c])
      obtain ⟨y, ys, h3, h4⟩ := splitSlash_other hc s
      rw [h1] at h3
      obtain ⟨rfl, rfl⟩ := List.cons.inj h3
      refine ⟨c :: x, xs, h4, ?_⟩
      rw [Dirs.walk, if_neg hc, h2]
      simp

theorem walk_fold (D : Dirs) (s : Str) (n : D.Node) : D.walk n [] s = (splitSlash s).foldl D.elem n := by
  obtain ⟨x, xs, h1, h2⟩ := walk_eq D s n []
  rw [h2, h1]; simp

/-- An element that `Clean` keeps. -/
structure Kept (e : Str) : Prop where
  slash : '/' ∉ e
  ne : e ≠ []
  dot : e ≠ ['.']

theorem splitSlash_noslash {e : Str} (h : '/' ∉ e) : splitSlash e = [e] := by
  induction e with
  | nil => rfl
  | cons c s ih =>
    simp at h
    obtain ⟨x, xs, h1, h2⟩ := splitSlash_other (Ne.symm h.1) s
    rw [ih h.2] at h1
    simp at h1
    rw [h2, ← h1.1, h1.2]

theorem splitSlash_append (a b : Str) : splitSlash (a ++ '/' :: b) = splitSlash a ++ splitSlash b := by
  induction a with
  | nil => simp [splitSlash_slash, splitSlash]
  | cons c a ih =>
    by_cases hc : c = '/'
    · subst hc
      rw [List.cons_append, splitSlash_slash, splitSlash_slash, ih, List.cons_append]
    · obtain ⟨x, xs, h1, h2⟩ := splitSlash_other hc (a ++ '/' :: b)
      obtain ⟨y, ys, h3, h4⟩ := splitSlash_other hc a
      rw [List.cons_append, h2, h4]
      rw [ih, h3] at h1
      simp at h1
      simp [h1]

theorem splitSlash_elems (s : Str) : ∀ e ∈ splitSlash s, '/' ∉ e := by
  induction s with
  | nil => simp [splitSlash]
  | cons c s ih =>
    by_cases hc : c = '/'
    · subst hc
      rw [splitSlash_slash]
      simpa using ih
    · obtain ⟨x, xs, h1, h2⟩ := splitSlash_other hc s
      rw [h2]
      rw [h1] at ih
      intro e he
      rcases List.mem_cons.1 he with rfl | he
      · have := ih x (by simp)
        simp [Ne.symm hc, this]
      · exact ih e (by simp [he])

theorem splitSlash_join {l : List Str} (h : ∀ e ∈ l, '/' ∉ e) (hne : l ≠ []) :
    splitSlash (joinSlash l) = l := by
  induction l with
  | nil => exact absurd rfl hne
  | cons e es ih =>
    cases es with
    | nil => exact splitSlash_noslash (h e (by simp))
    | cons e' es =>
      rw [joinSlash, splitSlash_append, splitSlash_noslash (h e (by simp)),
        ih (fun x hx => h x (by simp [hx])) (by simp)]
      · rfl
      · simp

theorem cleanStep_kept (r : Bool) (st : List Str) (e : Str) (h : ∀ x ∈ st, Kept x) (he : '/' ∉ e) :
    ∀ x ∈ cleanStep r st e, Kept x := by
  intro x hx
  unfold cleanStep at hx
  split at hx
  · exact h x hx
  rename_i h1
  have hk : Kept e := ⟨he, fun h => h1 (.inl h), fun h => h1 (.inr h)⟩
  split at hx
  · split at hx
    · split at hx
      · simp at hx
      · simp at hx; rw [hx]; exact hk
    · split at hx
      · rcases List.mem_cons.1 hx with rfl | hx
        · exact hk
        · exact h x hx
      · exact h x (by simp [hx])
  · rcases List.mem_cons.1 hx with rfl | hx
    · exact hk
    · exact h x hx

theorem clean_kept (r : Bool) (l st : List Str) (h : ∀ x ∈ st, Kept x) (hl : ∀ e ∈ l, '/' ∉ e) :
    ∀ x ∈ l.foldl (cleanStep r) st, Kept x := by
  induction l generalizing st with
  | nil => exact h
  | cons e l ih =>
    exact ih _ (cleanStep_kept r st e h (hl e (by simp))) (fun x hx => hl x (by simp [hx]))

theorem Dirs.elem_kept (D : Dirs) (n : D.Node) {e : Str} (h : Kept e) : D.elem n e = D.step n e := by
  rw [Dirs.elem, if_neg (by intro h'; rcases h' with h' | h'; exact h.ne h'; exact h.dot h')]

/-- `..` is not an element. -/
def plainElems (l : List Str) : Prop := ∀ e ∈ l, e ≠ ['.', '.']

theorem cleanStep_walk (D : Dirs) (r : Bool) (start : D.Node) (hr : r = true → start = D.root)
    (st : List Str) (e : Str) (hk : ∀ x ∈ st, Kept x) (hD : D.Plain ∨ e ≠ ['.', '.']) :
    (cleanStep r st e).reverse.foldl D.elem start = D.elem (st.reverse.foldl D.elem start) e := by
  unfold cleanStep
  split
  · rename_i h; rw [Dirs.elem, if_pos h]
  rename_i h1
  split
  · rename_i h2
    have hP : D.Plain := by rcases hD with h | h; exact h; exact absurd h2 h
    subst h2
    have hdd : ∀ n, D.elem n ['.', '.'] = D.step n ['.', '.'] := by
      intro n; rw [Dirs.elem, if_neg h1]
    split
    · split
      · rename_i h; rw [hr h, hdd]; simp [hP.top]
      · simp
    · rename_i x l
      split
      · rename_i hx; subst hx; simp
      · rename_i hx
        rw [hdd]
        simp only [List.reverse_cons, List.foldl_append, List.foldl_cons, List.foldl_nil]
        rw [D.elem_kept _ (hk x (by simp)), hP.back _ _ hx]
  · simp

theorem clean_walk (D : Dirs) (r : Bool) (start : D.Node) (hr : r = true → start = D.root)
    (l st : List Str) (hk : ∀ x ∈ st, Kept x) (hl : ∀ e ∈ l, '/' ∉ e)
    (hD : D.Plain ∨ plainElems l) :
    (l.foldl (cleanStep r) st).reverse.foldl D.elem start =
      l.foldl D.elem (st.reverse.foldl D.elem start) := by
  induction l generalizing st with
  | nil => rfl
  | cons e l ih =>
    simp only [List.foldl_cons]
    rw [ih _ (cleanStep_kept r st e hk (hl e (by simp))) (fun x hx => hl x (by simp [hx])),
      cleanStep_walk D r start hr st e hk]
    · rcases hD with h | h
      · exact .inl h
      · exact .inr (h e (by simp))
    · rcases hD with h | h
      · exact .inl h
      · exact .inr fun x hx => h x (by simp [hx])

/-- Cleaning does not change where a name leads. -/
theorem resolve_clean (D : Dirs) (cwd : D.Node) (p : Str)
    (hD : D.Plain ∨ plainElems (splitSlash p)) : D.resolve cwd (pathClean p) = D.resolve cwd p := by
  unfold pathClean
  split
  · rename_i h; subst h; simp [Dirs.resolve, Dirs.walk, Dirs.elem]
  have hR : D.resolve cwd p = (splitSlash p).foldl D.elem (if p.head? = some '/' then D.root else cwd) :=
    walk_fold D p _
  rw [hR]
  by_cases hp : p.head? = some '/'
  · have key := clean_walk D true D.root (fun _ => rfl) (splitSlash p) [] (by simp) (splitSlash_elems p) hD
    have hkept := clean_kept true (splitSlash p) [] (by simp) (splitSlash_elems p)
    simp only [List.reverse_nil, List.foldl_nil] at key
    simp only [hp, if_true, decide_true]
    rw [← key]
    generalize List.foldl (cleanStep true) [] (splitSlash p) = out at *
    have hns : ∀ e ∈ out.reverse, '/' ∉ e := fun e he => (hkept e (by simpa using he)).slash
    unfold Dirs.resolve
    rw [walk_fold, splitSlash_slash]
    simp only [List.head?_cons, if_true, List.foldl_cons]
    by_cases ho : out.reverse = []
    · rw [ho]; simp [joinSlash, splitSlash, Dirs.elem]
    · rw [splitSlash_join hns ho]; simp [Dirs.elem]
  · have key := clean_walk D false cwd (by simp) (splitSlash p) [] (by simp) (splitSlash_elems p) hD
    have hkept := clean_kept false (splitSlash p) [] (by simp) (splitSlash_elems p)
    simp only [List.reverse_nil, List.foldl_nil] at key
    simp only [hp, if_false, decide_false, Bool.false_eq_true]
    rw [← key]
    generalize List.foldl (cleanStep false) [] (splitSlash p) = out at *
    have hns : ∀ e ∈ out.reverse, '/' ∉ e := fun e he => (hkept e (by simpa using he)).slash
    by_cases ho : out.reverse = []
    · rw [if_pos ho, ho]; simp [Dirs.resolve, Dirs.walk, Dirs.elem]
    · rw [if_neg ho]
      unfold Dirs.resolve
      rw [walk_fold, splitSlash_join hns ho]
      have hh : (joinSlash out.reverse).head? ≠ some '/' := by
        cases hr : out.reverse with
        | nil => exact absurd hr ho
        | cons e es =>
          have hk := hkept e (by rw [← List.mem_reverse, hr]; simp)
          cases e with
          | nil => exact absurd rfl hk.ne
          | cons c e =>
            have hc := hk.slash
            simp at hc
            cases es <;> simp [joinSlash, Ne.symm hc.1]
      rw [if_neg hh]

theorem resolve_join (D : Dirs) (cwd : D.Node) (a b : Str) (hb : b ≠ []) (hb' : b.head? ≠ some '/' ∨ a ≠ [])
    (hD : D.Plain ∨ plainElems (splitSlash a ++ splitSlash b)) :
    D.resolve cwd (pathJoin a b) = (splitSlash b).foldl D.elem (D.resolve cwd a) := by
  unfold pathJoin
  split
  · rename_i ha
    have hj : joinSlash [a, b] = a ++ '/' :: b := rfl
    have hs : splitSlash (a ++ '/' :: b) = splitSlash a ++ splitSlash b := splitSlash_append a b
    rw [hj, resolve_clean _ _ _ (by rw [hs]; exact hD)]
    unfold Dirs.resolve
    rw [walk_fold, walk_fold, hs, List.foldl_append]
    cases a with
    | nil => exact absurd rfl ha
    | cons c a => rfl
  · rename_i ha
    simp at ha
    subst ha
    rw [resolve_clean]
    · unfold Dirs.resolve
      rw [walk_fold, walk_fold]
      simp at hb'
      rw [if_neg hb']
      simp [splitSlash, Dirs.elem]
    · rcases hD with h | h
      · exact .inl h
      · exact .inr fun x hx => h x (by simp [hx])

theorem join_splitSlash (s : Str) : joinSlash (splitSlash s) = s := by
  induction s with
  | nil => rfl
  | cons c s ih =>
    by_cases hc : c = '/'
    · subst hc
      rw [splitSlash_slash]
      cases hs : splitSlash s with
      | nil => exact absurd hs (splitSlash_ne s)
      | cons e es => rw [hs] at ih; rw [joinSlash, ih]; rfl; simp
    · obtain ⟨x, xs, h1, h2⟩ := splitSlash_other hc s
      rw [h1] at ih
      rw [h2, ← ih]
      cases xs <;> simp [joinSlash]

theorem joinSlash_mid (l : List Str) (x : Str) (r : List Str) : ∃ a b,
    joinSlash (l ++ x :: r) = a ++ x ++ b ∧ (a = [] ∨ ∃ a', a = a' ++ ['/']) ∧
      (b = [] ∨ ∃ b', b = '/' :: b') := by
  induction l with
  | nil =>
    cases r with
    | nil => exact ⟨[], [], by simp [joinSlash], .inl rfl, .inl rfl⟩
    | cons y r => exact ⟨[], '/' :: joinSlash (y :: r), by simp [joinSlash], .inl rfl, .inr ⟨_, rfl⟩⟩
  | cons e l ih =>
    obtain ⟨a, b, h1, h2, h3⟩ := ih
    refine ⟨e ++ '/' :: a, b, ?_, ?_, h3⟩
    · rw [List.cons_append]
      have : joinSlash (e :: (l ++ x :: r)) = e ++ '/' :: joinSlash (l ++ x :: r) := by
        cases l <;> rfl
      rw [this, h1]
      simp
    · right
      rcases h2 with rfl | ⟨a', rfl⟩
      · exact ⟨e, rfl⟩
      · exact ⟨e ++ '/' :: a', by simp⟩

theorem noDotDot_elems {p : Str} (h : NoDotDot p) : plainElems (splitSlash p) := by
  intro e he heq
  subst heq
  obtain ⟨l, r, hl⟩ := List.append_of_mem he
  obtain ⟨a, b, h1, h2, h3⟩ := joinSlash_mid l ['.', '.'] r
  rw [← hl, join_splitSlash] at h1
  exact h a b h1 h2 h3

theorem takeWhile_stop {p : Char → Bool} {a b : Str} (ha : ∀ c ∈ a, p c = true)
    (hb : ∀ c, b.head? = some c → p c = false) : (a ++ b).takeWhile p = a := by
  induction a with
  | nil =>
    cases b with
    | nil => rfl
    | cons c b => simp [List.takeWhile, hb c rfl]
  | cons c a ih =>
    rw [List.cons_append, List.takeWhile_cons, if_pos (ha c (by simp)), ih (fun d hd => ha d (by simp [hd]))]

theorem dropWhile_slashes (n : Nat) (s : Str) (h : s.head? ≠ some '/') :
    (List.replicate n '/' ++ s).dropWhile (· = '/') = s := by
  induction n with
  | zero =>
    cases s with
    | nil => rfl
    | cons c s =>
      have : c ≠ '/' := by simpa using h
      simp [List.dropWhile, this]
  | succ n ih => rw [List.replicate_succ, List.cons_append, List.dropWhile_cons]; simpa using ih

theorem pathBase_eq {p base : Str} (h : LastElem p base) : pathBase p = base := by
  obtain ⟨hs, hne, a, n, rfl, ha⟩ := h
  unfold pathBase
  rw [if_neg (by simp [hne])]
  have hrev : (a ++ base ++ List.replicate n '/').reverse =
      List.replicate n '/' ++ (base.reverse ++ a.reverse) := by simp
  have hhead : (base.reverse ++ a.reverse).head? ≠ some '/' := by
    cases hb : base.reverse with
    | nil => exact absurd (by simpa using hb) hne
    | cons c r =>
      intro h
      simp at h
      apply hs
      rw [← List.mem_reverse, hb, h]
      simp
  simp only [hrev]
  rw [dropWhile_slashes n _ hhead, takeWhile_stop]
  · rw [List.reverse_reverse]; exact if_neg hne
  · intro c hc
    have : c ∈ base := by simpa using hc
    have : c ≠ '/' := fun h => hs (h ▸ this)
    simpa using this
  · intro c hc
    rcases ha with rfl | ⟨a', rfl⟩
    · simp at hc
    · simp at hc; simp [← hc]

theorem exists_lastElem {p : Str} (h : ∃ c ∈ p, c ≠ '/') : ∃ base, LastElem p base := by
  -- by the last slash of the part before the trailing slashes
  have key : ∀ r : Str, (∃ c ∈ r, c ≠ '/') → ∃ n b a, r = List.replicate n '/' ++ (b ++ a) ∧ b ≠ [] ∧
      '/' ∉ b ∧ (a = [] ∨ ∃ a', a = '/' :: a') := by
    intro r
    induction r with
    | nil => simp
    | cons c r ih =>
      intro hr
      by_cases hc : c = '/'
      · subst hc
        obtain ⟨n, b, a, h1, h2⟩ := ih (by simpa using hr)
        exact ⟨n + 1, b, a, by rw [h1]; rfl, h2⟩
      · clear ih hr
        have : ∀ r : Str, ∃ b a, r = b ++ a ∧ '/' ∉ b ∧ (a = [] ∨ ∃ a', a = '/' :: a') := by
          intro r
          induction r with
          | nil => exact ⟨[], [], rfl, by simp, .inl rfl⟩
          | cons d r ih =>
            by_cases hd : d = '/'
            · exact ⟨[], d :: r, rfl, by simp, .inr ⟨r, by rw [hd]⟩⟩
            · obtain ⟨b, a, h1, h2, h3⟩ := ih
              exact ⟨d :: b, a, by rw [h1]; rfl, by simp [Ne.symm hd, h2], h3⟩
        obtain ⟨b, a, h1, h2, h3⟩ := this r
        exact ⟨0, c :: b, a, by rw [h1]; rfl, by simp, by simp [Ne.symm hc, h2], h3⟩
  obtain ⟨n, b, a, h1, h2, h3, h4⟩ := key p.reverse (by simpa using h)
  refine ⟨b.reverse, by simpa using h3, by simpa using h2, a.reverse, n, ?_, ?_⟩
  · have := congrArg List.reverse h1
    simpa using this
  · rcases h4 with rfl | ⟨a', rfl⟩
    · exact .inl rfl
    · exact .inr ⟨a'.reverse, by simp⟩

theorem stem_eq {base stem : Str} (hs : '/' ∉ base) (h : StemOf base stem) :
    base.take (base.length - (pathExt base).length) = stem := by
  rcases h with ⟨e, he, rfl⟩ | ⟨hd, rfl⟩
  · have : pathExt (stem ++ '.' :: e) = '.' :: e := by
      have hrev : (stem ++ '.' :: e).reverse = e.reverse ++ '.' :: stem.reverse := by simp
      have ht : (e.reverse ++ '.' :: stem.reverse).takeWhile (fun c => c ≠ '.' && c ≠ '/') = e.reverse := by
        apply takeWhile_stop
        · intro c hc
          have hc : c ∈ e := by simpa using hc
          have h1 : c ≠ '.' := fun h => he (h ▸ hc)
          have h2 : c ≠ '/' := fun h => hs (by rw [← h]; simp [hc])
          simp [h1, h2]
        · intro c hc
          simp at hc
          simp [← hc]
      unfold pathExt
      simp only [hrev, ht]
      rw [List.drop_left]
      simp
    rw [this]
    simp
  · have : pathExt stem = [] := by
      have ht : stem.reverse.takeWhile (fun c => c ≠ '.' && c ≠ '/') = stem.reverse := by
        have := takeWhile_stop (p := fun c => c ≠ '.' && c ≠ '/') (a := stem.reverse) (b := [])
          (by
            intro c hc
            have hc : c ∈ stem := by simpa using hc
            have h1 : c ≠ '.' := fun h => hd (h ▸ hc)
            have h2 : c ≠ '/' := fun h => hs (h ▸ hc)
            simp [h1, h2]) (by simp)
        simpa using this
      unfold pathExt
      simp only [ht]
      rw [List.drop_eq_nil_of_le (by simp)]
    rw [this]
    simp

theorem exists_stem (base : Str) : ∃ stem, StemOf base stem := by
  by_cases h : '.' ∈ base
  · have key : ∀ r : Str, '.' ∈ r → ∃ e s, r = e ++ '.' :: s ∧ '.' ∉ e := by
      intro r hr
      induction r with
      | nil => simp at hr
      | cons c r ih =>
        by_cases hc : c = '.'
        · exact ⟨[], r, by rw [hc]; rfl, by simp⟩
        · have hr' : '.' ∈ r := by simpa [Ne.symm hc] using hr
          obtain ⟨e, s, h1, h2⟩ := ih hr'
          exact ⟨c :: e, s, by rw [h1]; rfl, by simp [Ne.symm hc, h2]⟩
    obtain ⟨e, s, h1, h2⟩ := key base.reverse (by simpa using h)
    refine ⟨s.reverse, .inl ⟨e.reverse, by simpa using h2, ?_⟩⟩
    have := congrArg List.reverse h1
    simpa using this
  · exact ⟨base, .inr ⟨h, rfl⟩⟩

end Verif
