import Verif.Model.Types
import Verif.Spec.Words
/-!
# C41: type-name lookups
-/

namespace Verif

/-- `c` is the lower-case letter `k` in some case: itself, the ASCII capital,
or (for `i` and `k`) the non-ASCII capitals U+0130 `İ` and U+212A (Kelvin
sign). -/
def CaseOf (c k : Char) : Prop :=
  c = k ∨ c.toNat + 32 = k.toNat ∨ (k = 'i' ∧ c.toNat = 0x130) ∨ (k = 'k' ∧ c.toNat = 0x212A)

/-- The same letters, each in some case. -/
def CaseVariant : Str → Str → Prop
  | [], [] => True
  | c :: s, k :: t => CaseOf c k ∧ CaseVariant s t
  | _, _ => False

/-- The documented names. -/
def columnNames : List (Str × Str) :=
  [("null".toList, "null".toList), ("text".toList, "text".toList), ("int".toList, "int".toList),
   ("blob".toList, "blob".toList)]

def attributeNames : List (Str × Str) :=
  [("primary".toList, "primary_key".toList), ("unique".toList, "unique".toList),
   ("notnull".toList, "not_null".toList), ("default".toList, "default".toList),
   ("min".toList, "min".toList), ("max".toList, "max".toList), ("minlen".toList, "min_length".toList),
   ("maxlen".toList, "max_length".toList)]

def indexNames : List (Str × Str) :=
  [("index".toList, "btree".toList), ("unique".toList, "unique_btree".toList),
   ("primary".toList, "primary".toList)]

theorem toNat_ofNat_lt (n : Nat) (h : n < 128) : (Char.ofNat n).toNat = n := by
  have : ∀ n : Fin 128, (Char.ofNat n.1).toNat = n.1 := by decide
  exact this ⟨n, h⟩

theorem caseOf_iff (u : UniLower) {c k : Char} (hk : 97 ≤ k.toNat ∧ k.toNat ≤ 122) :
    u.f c = k ↔ CaseOf c k := by
  have eqn : ∀ {a b : Char}, a.toNat = b.toNat → a = b := fun h => Char.toNat_inj.1 h
  constructor
  · rintro rfl
    by_cases h1 : c.toNat < 128
    · by_cases h2 : 65 ≤ c.toNat ∧ c.toNat ≤ 90
      · exact .inr (.inl (u.upper c h2.1 h2.2).symm)
      · exact .inl (u.ascii c h1 h2).symm
    · by_cases h3 : c.toNat = 0x130
      · exact .inr (.inr (.inl ⟨u.dottedI c h3, h3⟩))
      · by_cases h4 : c.toNat = 0x212A
        · exact .inr (.inr (.inr ⟨u.kelvin c h4, h4⟩))
        · have := u.others c (by omega) h3 h4
          omega
  · rintro (rfl | h | ⟨rfl, h⟩ | ⟨rfl, h⟩)
    · exact u.ascii c (by omega) (by omega)
    · apply eqn
      rw [u.upper c (by omega) (by omega), h]
    · exact u.dottedI c h
    · exact u.kelvin c h

theorem lower_iff (u : UniLower) {s k : Str} (hk : ∀ c ∈ k, 97 ≤ c.toNat ∧ c.toNat ≤ 122) :
    u.lower s = k ↔ CaseVariant s k := by
  induction k generalizing s with
  | nil =>
    cases s with
    | nil => simp [UniLower.lower, CaseVariant]
    | cons c s => simp [UniLower.lower, CaseVariant]
  | cons d k ih =>
    cases s with
    | nil => simp [UniLower.lower, CaseVariant]
    | cons c s =>
      have := ih (s := s) (fun c hc => hk c (by simp [hc]))
      simp only [UniLower.lower, List.map_cons, List.cons.injEq, CaseVariant] at this ⊢
      rw [this, caseOf_iff u (hk d (by simp))]

theorem lookup_iff (u : UniLower) {l : List (Str × Str)}
    (hl : ∀ p ∈ l, ∀ c ∈ p.1, 97 ≤ c.toNat ∧ c.toNat ≤ 122)
    (hd : ∀ p ∈ l, l.lookup p.1 = some p.2) (s t : Str) :
    l.lookup (u.lower s) = some t ↔ ∃ k, (k, t) ∈ l ∧ CaseVariant s k := by
  constructor
  · intro h
    refine ⟨u.lower s, ?_, ?_⟩
    · clear hl hd
      induction l with
      | nil => simp at h
      | cons p l ih =>
        obtain ⟨a, b⟩ := p
        rw [List.lookup_cons] at h
        split at h
        · rename_i hk
          have hk : u.lower s = a := by simpa using hk
          simp at h
          simp [hk, h]
        · simp [ih h]
    · have hm : (u.lower s, t) ∈ l := by
        clear hl hd
        induction l with
        | nil => simp at h
        | cons p l ih =>
          obtain ⟨a, b⟩ := p
          rw [List.lookup_cons] at h
          split at h
          · rename_i hk
            have hk : u.lower s = a := by simpa using hk
            simp at h
            simp [hk, h]
          · simp [ih h]
      exact (lower_iff u (hl _ hm)).1 rfl
  · rintro ⟨k, hk, hv⟩
    rw [(lower_iff u (hl _ hk)).2 hv]
    exact hd _ hk

theorem tables_lower :
    (∀ p ∈ columnTypes ++ attributeTypes ++ indexTypes, ∀ c ∈ p.1, 97 ≤ c.toNat ∧ c.toNat ≤ 122) ∧
    (∀ p ∈ columnTypes, columnTypes.lookup p.1 = some p.2) ∧
    (∀ p ∈ attributeTypes, attributeTypes.lookup p.1 = some p.2) ∧
    (∀ p ∈ indexTypes, indexTypes.lookup p.1 = some p.2) ∧
    columnTypes = columnNames ∧ attributeTypes = attributeNames ∧ indexTypes = indexNames := by
  decide +kernel

/-- C41. `GetColumnType` returns `t` exactly for the documented name of `t`, in
any case. -/
theorem C41_column (u : UniLower) (s t : Str) :
    getColumnType u s = .ok t ↔ ∃ k, (k, t) ∈ columnNames ∧ CaseVariant s k := by
  obtain ⟨h1, h2, _, _, h5, _⟩ := tables_lower
  rw [← h5, ← lookup_iff u (fun p hp => h1 p (by simp [hp])) h2]
  unfold getColumnType
  cases columnTypes.lookup (u.lower s) <;> simp

theorem C41_attribute (u : UniLower) (s t : Str) :
    getAttributeType u s = .ok t ↔ ∃ k, (k, t) ∈ attributeNames ∧ CaseVariant s k := by
  obtain ⟨h1, _, h2, _, _, h5, _⟩ := tables_lower
  rw [← h5, ← lookup_iff u (fun p hp => h1 p (by simp [hp])) h2]
  unfold getAttributeType
  cases attributeTypes.lookup (u.lower s) <;> simp

theorem C41_index (u : UniLower) (s t : Str) :
    getIndexType u s = .ok t ↔ ∃ k, (k, t) ∈ indexNames ∧ CaseVariant s k := by
  obtain ⟨h1, _, _, h2, _, _, h5⟩ := tables_lower
  rw [← h5, ← lookup_iff u (fun p hp => h1 p (by simp [hp])) h2]
  unfold getIndexType
  cases indexTypes.lookup (u.lower s) <;> simp

/-- C41. Any other string gives an error that quotes it. -/
theorem C41_errors (u : UniLower) (s : Str) :
    ((∀ t, getColumnType u s ≠ .ok t) →
      getColumnType u s = .error ("invalid column type: ".toList ++ s)) ∧
    ((∀ t, getAttributeType u s ≠ .ok t) →
      getAttributeType u s = .error ("invalid attribute type: ".toList ++ s)) ∧
    ((∀ t, getIndexType u s ≠ .ok t) →
      getIndexType u s = .error ("invalid index type: ".toList ++ s)) := by
  unfold getColumnType getAttributeType getIndexType
  refine ⟨?_, ?_, ?_⟩
  · cases columnTypes.lookup (u.lower s) <;> simp
  · cases attributeTypes.lookup (u.lower s) <;> simp
  · cases indexTypes.lookup (u.lower s) <;> simp

/-- C41. On ASCII strings: exactly if the ASCII lower case is a documented
name. -/
theorem C41_ascii (u : UniLower) (s t : Str) (hs : ∀ c ∈ s, c.toNat < 128) :
    (getColumnType u s = .ok t ↔ (lower s, t) ∈ columnNames) ∧
    (getAttributeType u s = .ok t ↔ (lower s, t) ∈ attributeNames) ∧
    (getIndexType u s = .ok t ↔ (lower s, t) ∈ indexNames) := by
  have hcu : ∀ c : Char, c.toNat < 128 → u.f c = lowerChar c := by
    intro c hc
    unfold lowerChar
    split
    · rename_i h
      have h1 : 65 ≤ c.toNat := by have := h.1; exact UInt32.le_iff_toNat_le.1 this
      have h2 : c.toNat ≤ 90 := by have := h.2; exact UInt32.le_iff_toNat_le.1 this
      apply Char.toNat_inj.1
      rw [u.upper c h1 h2, toNat_ofNat_lt _ (by omega)]
    · rename_i h
      apply u.ascii c hc
      rintro ⟨h1, h2⟩
      exact h ⟨UInt32.le_iff_toNat_le.2 h1, UInt32.le_iff_toNat_le.2 h2⟩
  have hl : u.lower s = lower s := List.map_congr_left fun c hc => hcu c (hs c hc)
  have key : ∀ l : List (Str × Str), (∀ p ∈ l, ∀ c ∈ p.1, 97 ≤ c.toNat ∧ c.toNat ≤ 122) →
      ((∃ k, (k, t) ∈ l ∧ CaseVariant s k) ↔ (lower s, t) ∈ l) := by
    intro l h
    constructor
    · rintro ⟨k, hk, hv⟩
      rw [← hl, (lower_iff u (h _ hk)).2 hv]
      exact hk
    · intro hm
      exact ⟨_, hm, (lower_iff u (h _ hm)).1 hl⟩
  obtain ⟨h1, _, _, _, h5, h6, h7⟩ := tables_lower
  rw [h5, h6, h7] at h1
  rw [C41_column, C41_attribute, C41_index]
  exact ⟨key _ (fun p hp => h1 p (by simp [hp])), key _ (fun p hp => h1 p (by simp [hp])),
    key _ (fun p hp => h1 p (by simp [hp]))⟩

/-- Tables with these properties exist. -/
def Sample.uni : UniLower where
  f := fun c => if 65 ≤ c.toNat ∧ c.toNat ≤ 90 then Char.ofNat (c.toNat + 32)
    else if c.toNat = 0x130 then 'i' else if c.toNat = 0x212A then 'k' else c
  upper := fun c h1 h2 => by
    simp only [h1, h2, and_self, if_true]
    exact toNat_ofNat_lt _ (by omega)
  ascii := fun c h1 h2 => by
    simp only [h2, if_false]
    rw [if_neg (by omega), if_neg (by omega)]
  dottedI := fun c h => by simp only [h]; rfl
  kelvin := fun c h => by simp only [h]; rfl
  others := fun c h1 h2 h3 => by
    rw [if_neg (by omega), if_neg h2, if_neg h3]
    exact h1

/-- Mixed case is accepted, a prefix is not. -/
example : getColumnType Sample.uni "TeXt".toList = .ok "text".toList ∧
    getAttributeType Sample.uni "MaxLen".toList = .ok "max_length".toList ∧
    getIndexType Sample.uni "UNIQUE".toList = .ok "unique_btree".toList ∧
    getColumnType Sample.uni "tex".toList = .error "invalid column type: tex".toList :=
  ⟨rfl, rfl, rfl, rfl⟩

end Verif
