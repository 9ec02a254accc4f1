import Verif.Server.Lemmas
/-!
# Lemmas about the settings merge
-/
namespace Verif.Srv

theorem merge_obj (t p : List (String × Json)) : merge (.obj t) (.obj p) = .obj (mergeFields t p) := by
  rw [merge]

theorem merge_leaf (t p : Json) (h : t.isLeaf ∨ p.isLeaf) : merge t p = p := by
  cases t <;> cases p <;> first | (simp [Json.isLeaf] at h; done) | (rw [merge]; simp)

theorem look_mergeKey (t : List (String × Json)) (k k' : String) (v : Json) :
    look k' (mergeKey t k v) =
      if k = k' then some (match look k t with | some a => merge a v | none => v) else look k' t := by
  induction t with
  | nil => rw [mergeKey]; simp [look]
  | cons a t ih =>
    obtain ⟨ka, va⟩ := a
    rw [mergeKey]
    by_cases h : ka = k
    · subst h
      by_cases h2 : ka = k' <;> simp [look, h2]
    · by_cases h2 : ka = k'
      · have h3 : ¬ k = k' := fun e => h (h2.trans e.symm)
        have h4 : ¬ k' = k := fun e => h3 e.symm
        simp [look, h2, h3, h4]
      · simp [look, h, h2, ih]

theorem look_none_of_not_mem {α : Type} {k : String} {l : List (String × α)} (h : k ∉ l.map Prod.fst) :
    look k l = none := by
  induction l with
  | nil => rfl
  | cons a l ih =>
    simp only [List.map_cons, List.mem_cons, not_or] at h
    have : ¬ a.1 = k := fun e => h.1 e.symm
    simp [look, this, ih h.2]

theorem look_mergeFields (t p : List (String × Json)) (k : String) (hp : (p.map Prod.fst).Nodup) :
    look k (mergeFields t p) =
      match look k p with
      | none => look k t
      | some v => some (match look k t with | some a => merge a v | none => v) := by
  induction p generalizing t with
  | nil => rw [mergeFields]; rfl
  | cons a p ih =>
    obtain ⟨ka, va⟩ := a
    simp only [List.map_cons, List.nodup_cons] at hp
    rw [mergeFields, ih _ hp.2, look_mergeKey]
    by_cases h : ka = k
    · subst h
      simp [look_none_of_not_mem hp.1, look]
    · simp [look, h]

theorem Json.WF.field {j v : Json} {k : String} (h : j.WF) (hv : j.get k = some v) : v.WF := by
  intro path fs hp
  exact h (k :: path) fs (by simp [Json.at, hv, hp])

theorem Json.WF.keys {fs : List (String × Json)} (h : (Json.obj fs).WF) : (fs.map Prod.fst).Nodup := h [] fs rfl

theorem get_leaf {j : Json} (h : j.isLeaf) (k : String) : j.get k = none := by
  cases j <;> first | rfl | exact h.elim

theorem obj_or_leaf (j : Json) : (∃ fs, j = .obj fs) ∨ j.isLeaf := by
  cases j <;> first | (right; trivial) | (left; exact ⟨_, rfl⟩)

theorem get_merge (t p : Json) (hp : p.WF) (ho : ¬ p.isLeaf) (k : String) :
    (merge t p).get k =
      match p.get k with
      | none => t.get k
      | some v => some (match t.get k with | some a => merge a v | none => v) := by
  rcases obj_or_leaf p with ⟨fp, rfl⟩ | hl
  · rcases obj_or_leaf t with ⟨ft, rfl⟩ | hl
    · rw [merge_obj]
      simp only [Json.get]
      exact look_mergeFields ft fp k hp.keys
    · rw [merge_leaf _ _ (.inl hl)]
      simp only [get_leaf hl]
      cases (Json.obj fp).get k <;> rfl
  · exact absurd hl ho

theorem at_merge_set (path : List String) (t p v : Json) (hp : p.WF) (hv : v.isLeaf) (h : p.at path = some v) :
    (merge t p).at path = some v := by
  induction path generalizing t p with
  | nil =>
    simp only [Json.at, Option.some.injEq] at h
    subst h
    rw [merge_leaf _ _ (.inr hv)]; rfl
  | cons k ks ih =>
    simp only [Json.at] at h
    cases hk : p.get k with
    | none => simp [hk] at h
    | some pv =>
      rw [hk, Option.bind_some] at h
      have hnl : ¬ p.isLeaf := fun hl => by rw [get_leaf hl] at hk; cases hk
      simp only [Json.at, get_merge t p hp hnl, hk, Option.bind_some]
      cases t.get k with
      | none => exact h
      | some a => exact ih a pv (hp.field hk) h

theorem at_merge_keep (path : List String) (t p : Json) (hp : p.WF) (h : Leaves p path) :
    (merge t p).at path = t.at path := by
  obtain ⟨pre, k, post, fs, rfl, h1, h2⟩ := h
  induction pre generalizing t p with
  | nil =>
    simp only [Json.at, Option.some.injEq] at h1
    subst h1
    simp only [List.nil_append, Json.at]
    rw [get_merge _ _ hp (by simp [Json.isLeaf])]
    simp only [show (Json.obj fs).get k = none from h2]
  | cons k' ks ih =>
    simp only [Json.at] at h1
    cases hk : p.get k' with
    | none => simp [hk] at h1
    | some pv =>
      rw [hk, Option.bind_some] at h1
      have hnl : ¬ p.isLeaf := fun hl => by rw [get_leaf hl] at hk; cases hk
      simp only [List.cons_append, Json.at, get_merge t p hp hnl, hk, Option.bind_some]
      cases ht : t.get k' with
      | some a => exact ih a pv (hp.field hk) h1
      | none =>
        have := ih .null pv (hp.field hk) h1
        simp only [Option.bind_none]
        have hn : ∀ (l : List String) (x : String), (Json.null).at (l ++ x :: post) = none := by
          intro l x; cases l <;> rfl
        rw [hn] at this
        rw [← this]
        rw [merge_leaf .null pv (.inl trivial)]

end Verif.Srv
