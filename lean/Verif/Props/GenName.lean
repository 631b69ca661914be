import Verif.Model.GenName
/-
C34: generated constraint and index names.
-/
namespace Ddl

theorem nameSuffix_length (k : NameKind) : (nameSuffix k).length ≤ 6 := by cases k <;> decide

/-- The name is a prefix of the joined table and column names followed by the suffix; nothing is cut off names that fit. -/
theorem C34_shape (k : NameKind) (t : Str) (cs : List Str) :
    let full := underscored t ++ cs.flatMap fun c => "_".toList ++ underscored c
    ∃ p, p <+: full ∧ generateName k t cs = p ++ nameSuffix k ∧
      (full.length + (nameSuffix k).length ≤ 63 → p = full) ∧
      (63 < full.length + (nameSuffix k).length → p.length + (nameSuffix k).length = 63) := by
  intro full
  have hs := nameSuffix_length k
  unfold generateName
  dsimp only
  split
  · refine ⟨_, List.take_prefix _ _, rfl, fun h => ?_, fun h => ?_⟩
    · show full.take _ = full
      have : ((full.length : Int) + (nameSuffix k).length - 63) > 0 := by assumption
      omega
    · rw [List.length_take]
      show min (full.length - ((full.length : Int) + (nameSuffix k).length - 63).toNat) full.length + _ = _
      omega
  · refine ⟨full, List.prefix_rfl, rfl, fun _ => rfl, fun h => ?_⟩
    have : ¬ ((full.length : Int) + (nameSuffix k).length - 63) > 0 := by assumption
    omega

/-- **C34.** For every table name, column list and kind, the generated name has at most 63 bytes, and ends with the suffix of
its kind. -/
theorem C34_length_suffix (k : NameKind) (t : Str) (cs : List Str) :
    (generateName k t cs).length ≤ 63 ∧ nameSuffix k <:+ generateName k t cs := by
  obtain ⟨p, -, h, h1, h2⟩ := C34_shape k t cs
  have hs := nameSuffix_length k
  rw [h]
  refine ⟨?_, List.suffix_append _ _⟩
  rw [List.length_append]
  by_cases hle : (underscored t ++ cs.flatMap fun c => "_".toList ++ underscored c).length + (nameSuffix k).length ≤ 63
  · rw [h1 hle]; exact hle
  · exact Nat.le_of_eq (h2 (by omega))

/-- The generated name contains no space. -/
theorem C34_no_space (k : NameKind) (t : Str) (cs : List Str) : ' ' ∉ generateName k t cs := by
  obtain ⟨p, hp, h, -⟩ := C34_shape k t cs
  rw [h, List.mem_append]
  rintro (hm | hm)
  · have hm := hp.subset hm
    have hu : ∀ s, ' ' ∉ underscored s := by
      intro s
      simp only [underscored, List.mem_map, not_exists, not_and]
      intro c _
      split <;> simp_all
    rcases List.mem_append.1 hm with hm | hm
    · exact hu _ hm
    · obtain ⟨c, -, hc⟩ := List.mem_flatMap.1 hm
      rcases List.mem_append.1 hc with hc | hc
      · revert hc; decide
      · exact hu _ hc
  · revert hm; cases k <;> decide

/-- **C34.** Two different kinds never get the same name, whatever the tables and columns. -/
theorem C34_kinds_differ (k₁ k₂ : NameKind) (h₁ : k₁ ≠ .other) (h₂ : k₂ ≠ .other) (hne : k₁ ≠ k₂) (t₁ t₂ : Str)
    (cs₁ cs₂ : List Str) : generateName k₁ t₁ cs₁ ≠ generateName k₂ t₂ cs₂ := by
  intro he
  obtain ⟨p, -, h, -⟩ := C34_shape k₁ t₁ cs₁
  obtain ⟨q, -, h', -⟩ := C34_shape k₂ t₂ cs₂
  rw [h, h'] at he
  have hr := congrArg (fun l => l.reverse.take 4) he
  simp only [List.reverse_append] at hr
  have hlen : ∀ k, k ≠ NameKind.other → 4 ≤ (nameSuffix k).reverse.length := by
    intro k hk; cases k <;> first | exact absurd rfl hk | decide
  rw [List.take_append_of_le_length (hlen _ h₁), List.take_append_of_le_length (hlen _ h₂)] at hr
  revert hr
  cases k₁ <;> cases k₂ <;> first | exact absurd rfl hne | exact absurd rfl h₁ | exact absurd rfl h₂ | decide

/-- Different tables and columns may get the same name: `a(b_c)`, `a_b(c)` and `a(b, c)`. -/
theorem C34_collision :
    generateName .index "a".toList ["b_c".toList] = generateName .index "a_b".toList ["c".toList] ∧
      generateName .index "a".toList ["b".toList, "c".toList] = generateName .index "a b".toList ["c".toList] := by decide

/-- And so may two long column names that agree in what fits. -/
theorem C34_truncation :
    generateName .unique "t".toList [List.replicate 80 'x' ++ ['1']] = generateName .unique "t".toList [List.replicate 80 'x' ++ ['2']] := by
  decide +kernel

example : generateName .foreignKey "film actor".toList ["film_id".toList, "x".toList] = "film_actor_film_id_x_fkey".toList := by decide

end Ddl
