import Verif.Spec.Reorder
import Verif.Lemmas.Geometry
import Verif.Lemmas.Reblock
import Verif.Lemmas.Renumber

/-!
# Lemmas: meshes whose cells are in another order (C106)
-/

namespace Verif.Spec

variable {τ : Equiv.Perm ℕ}

theorem Reordered.symm {α : Type} {l l' : List α} (h : Reordered τ l l') : Reordered τ.symm l' l := by
  intro i
  have := h (τ.symm i)
  rw [Equiv.apply_symm_apply] at this
  exact this.symm

theorem Reordered.mem {α : Type} {l l' : List α} (h : Reordered τ l l') {x : α} (hx : x ∈ l') : x ∈ l := by
  obtain ⟨k, hk⟩ := List.mem_iff_getElem?.1 hx
  rw [List.mem_iff_getElem?]
  exact ⟨τ.symm k, (h.symm k).trans hk⟩

theorem Reordered.nil {α : Type} {l l' : List α} (h : Reordered τ l l') : l' = [] ↔ l = [] := by
  constructor
  · rintro rfl
    exact List.eq_nil_iff_forall_not_mem.2 fun x hx => by cases h.symm.mem hx
  · rintro rfl
    exact List.eq_nil_iff_forall_not_mem.2 fun x hx => by cases h.mem hx

theorem Reordered.lt {α : Type} {l l' : List α} (h : Reordered τ l l') (i : ℕ) : τ i < l'.length ↔ i < l.length := by
  have := h i
  constructor
  · intro hi
    by_contra hn
    rw [List.getElem?_eq_getElem hi, List.getElem?_eq_none (by omega)] at this
    cases this
  · intro hi
    by_contra hn
    rw [List.getElem?_eq_getElem hi, List.getElem?_eq_none (by omega)] at this
    cases this

end Verif.Spec

namespace Verif.Mesh
open Verif.Py Verif.Model Verif.Spec

variable {τ : Equiv.Perm ℕ}

theorem forall₂_some {α β : Type} {R : α → β → Prop} {l : List α} {r : List β} {i : ℕ} {x : α}
    (h : List.Forall₂ R l r) (hi : l[i]? = some x) : ∃ y, r[i]? = some y ∧ R x y := by
  obtain ⟨y, hy, hr⟩ := forall₂_getElem? (R := fun a b => R b a) (List.Forall₂.flip h) hi
  exact ⟨y, hy, hr⟩

theorem mapM_reordered {α β : Type} {l l' : List α} (h : Reordered τ l l') {f : α → Except PyErr β} {r : List β}
    (hr : l.mapM f = .ok r) : ∃ r', l'.mapM f = .ok r' ∧ Reordered τ r r' := by
  have h1 := mapM_eq_ok hr
  obtain ⟨r', hr'⟩ : ∃ r', l'.mapM f = .ok r' := by
    refine mapM_exists fun x hx => ?_
    obtain ⟨k, hk⟩ := List.mem_iff_getElem?.1 (h.mem hx)
    obtain ⟨y, -, hy⟩ := forall₂_some h1 hk
    exact ⟨y, hy⟩
  have h2 := mapM_eq_ok hr'
  refine ⟨r', hr', fun i => ?_⟩
  cases hi : l[i]? with
  | none =>
    have hn : r.length ≤ i := by
      rw [← h1.length_eq]
      exact List.getElem?_eq_none_iff.1 hi
    have hn' : r'.length ≤ τ i := by
      rw [← h2.length_eq]
      exact List.getElem?_eq_none_iff.1 ((h i).trans hi)
    rw [List.getElem?_eq_none hn, List.getElem?_eq_none hn']
  | some x =>
    obtain ⟨y, e1, e2⟩ := forall₂_some h1 hi
    obtain ⟨y', e3, e4⟩ := forall₂_some h2 ((h i).trans hi)
    rw [e1, e3]
    rw [e2] at e4
    cases e4
    rfl

theorem faceAt_reordered {fs fs' : List (List (List ℕ))} (h : Reordered τ fs fs') {i a : ℕ} {f : List ℕ} :
    FaceAt fs' (τ i) a f ↔ FaceAt fs i a f := by
  unfold FaceAt
  rw [h i]

theorem shared_reordered {fs fs' : List (List (List ℕ))} (h : Reordered τ fs fs') {i a j b : ℕ} :
    Shared fs' (τ i) a (τ j) b ↔ Shared fs i a j b := by
  unfold Shared
  simp only [faceAt_reordered h, ne_eq, Prod.mk.injEq, EmbeddingLike.apply_eq_iff_eq]

theorem mates_reordered {fs fs' : List (List (List ℕ))} (h : Reordered τ fs fs') {i a j b : ℕ} :
    Mates fs' (τ i, a) (τ j, b) ↔ Mates fs (i, a) (j, b) := by
  unfold Mates
  simp only [shared_reordered h]
  refine and_congr_right fun _ => ?_
  constructor
  · intro hk k c hs
    have := hk (τ k) c ((shared_reordered h).2 hs)
    rw [Prod.mk.injEq, EmbeddingLike.apply_eq_iff_eq] at this
    rw [this.1, this.2]
  · intro hk k c hs
    have hs' : Shared fs' (τ i) a (τ (τ.symm k)) c := by rw [Equiv.apply_symm_apply]; exact hs
    have := hk (τ.symm k) c ((shared_reordered h).1 hs')
    rw [Prod.mk.injEq] at this
    rw [← this.1, ← this.2, Equiv.apply_symm_apply]

theorem connectionsOf_reordered {fs fs' : List (List (List ℕ))} (h : Reordered τ fs fs')
    (hlen : ∀ i a f, FaceAt fs i a f → f.length = 3 ∨ f.length = 4) (i a : ℕ) :
    tableAt (connectionsOf fs') (τ i) a = (tableAt (connectionsOf fs) i a).map (newNumber τ) := by
  have hlen' : ∀ i a f, FaceAt fs' i a f → f.length = 3 ∨ f.length = 4 := by
    intro i a f hf
    refine hlen (τ.symm i) a f ((faceAt_reordered h).1 ?_)
    rw [Equiv.apply_symm_apply]
    exact hf
  by_cases hia : i < fs.length ∧ a < 6
  · obtain ⟨h1, h2⟩ := entry_connectionsOf hlen i a hia.1 hia.2
    obtain ⟨h3, h4⟩ := entry_connectionsOf hlen' (τ i) a ((h.lt i).2 hia.1) hia.2
    by_cases hq : ∃ q, Mates fs (i, a) q
    · obtain ⟨⟨j, b⟩, hq⟩ := hq
      rw [h1 _ hq, h3 _ ((mates_reordered h).2 hq), Option.map_some, newNumber, if_neg (by omega), Int.toNat_natCast]
    · rw [h2 hq, h4, Option.map_some, newNumber, if_pos (by omega)]
      rintro ⟨⟨j, b⟩, hj⟩
      refine hq ⟨(τ.symm j, b), (mates_reordered h).1 ?_⟩
      rw [Equiv.apply_symm_apply]
      exact hj
  · rw [entry_connectionsOf_none i a hia, entry_connectionsOf_none (τ i) a (by rw [h.lt]; exact hia)]
    rfl

/-! ### Faces one by one -/

/-- The direction of one face. -/
noncomputable def unitNormal (pts : List (P3 ℝ)) (f : List ℕ) : Except PyErr (P3 ℝ) := do
  let v ← triangleNormal pts [0, 1, 2] f
  .ok (scale (1 / norm3 v) v)

theorem facesInOrder_mem {fs : List (List (List ℕ))} {f : List ℕ} {i a : ℕ} :
    (f, i, a) ∈ facesInOrder fs ↔ FaceAt fs i a f ∧ (f.length = 3 ∨ f.length = 4) := by
  unfold facesInOrder
  rw [List.mem_append, mem_getFaces, mem_getFaces]
  tauto

theorem facesInOrder_reordered {fs fs' : List (List (List ℕ))} (h : Reordered τ fs fs') :
    facesInOrder fs' = [] ↔ facesInOrder fs = [] := by
  rw [List.eq_nil_iff_forall_not_mem, List.eq_nil_iff_forall_not_mem]
  constructor
  · rintro hn ⟨f, i, a⟩ hm
    exact hn (f, τ i, a) (facesInOrder_mem.2 (by rw [faceAt_reordered h]; exact facesInOrder_mem.1 hm))
  · rintro hn ⟨f, i, a⟩ hm
    refine hn (f, τ.symm i, a) (facesInOrder_mem.2 ?_)
    rw [← faceAt_reordered h, Equiv.apply_symm_apply]
    exact facesInOrder_mem.1 hm

theorem mapM_of_forall₂ {α β : Type} {f : α → Except PyErr β} {l : List α} {r : List β}
    (h : List.Forall₂ (fun x y => f x = .ok y) l r) : l.mapM f = .ok r := by
  induction h with
  | nil => rfl
  | cons h1 _ ih => rw [List.mapM_cons, h1, ih]; rfl

/-- A loop over all faces in their order, gathered for the cells, is a loop over the cells. -/
theorem gather_loop {α : Type} {fs : List (List (List ℕ))} (ht : TrianglesFirst fs) {f : List ℕ → Except PyErr α}
    {xs : List (List α)}
    (hlen : ∀ i a f, FaceAt fs i a f → f.length = 3 ∨ f.length = 4) :
    (∃ ys, (facesInOrder fs).mapM (fun o => f o.1) = .ok ys ∧
      gather fs.length (((facesInOrder fs).map (·.2.1)).zip ys) = xs) ↔ fs.mapM (fun row => row.mapM f) = .ok xs := by
  have key : ∀ ys, (facesInOrder fs).mapM (fun o => f o.1) = .ok ys →
      fs.mapM (fun row => row.mapM f) = .ok (gather fs.length (((facesInOrder fs).map (·.2.1)).zip ys)) := by
    intro ys hy
    exact mapM_of_forall₂ ((gather_faces ht (R := fun g x => f g = .ok x) (mapM_eq_ok hy)).imp
      fun _ _ h => mapM_of_forall₂ h)
  constructor
  · rintro ⟨ys, h1, rfl⟩
    exact key ys h1
  · intro hx
    obtain ⟨ys, hy⟩ : ∃ ys, (facesInOrder fs).mapM (fun o => f o.1) = .ok ys := by
      refine mapM_exists ?_
      rintro ⟨g, i, a⟩ hm
      obtain ⟨⟨row, h1, h2⟩, -⟩ := facesInOrder_mem.1 hm
      obtain ⟨ys, -, hr⟩ := forall₂_some (mapM_eq_ok hx) h1
      obtain ⟨y, -, hy⟩ := forall₂_some (mapM_eq_ok hr) h2
      exact ⟨y, hy⟩
    have := key ys hy
    rw [hx] at this
    exact ⟨ys, hy, (Except.ok.inj this).symm⟩

theorem faceNormals_loop {pts : List (P3 ℝ)} {fs : List (List (List ℕ))} (ht : TrianglesFirst fs)
    (hlen : ∀ i a f, FaceAt fs i a f → f.length = 3 ∨ f.length = 4) {ns : List (List (P3 ℝ))} :
    faceNormals pts fs = .ok ns ↔ facesInOrder fs ≠ [] ∧ fs.mapM (fun row => row.mapM (unitNormal pts)) = .ok ns := by
  rw [← gather_loop ht hlen]
  unfold faceNormals
  by_cases h0 : facesInOrder fs = []
  · rw [if_pos h0]
    exact ⟨fun h => (nomatch h), fun h => absurd h0 h.1⟩
  · rw [if_neg h0]
    have : (facesInOrder fs).mapM (fun o => unitNormal pts o.1) =
        ((facesInOrder fs).mapM fun o => triangleNormal pts [0, 1, 2] o.1).map
          (List.map fun v => scale (1 / norm3 v) v) := by
      refine mapM_map_ok fun o _ => ?_
      unfold unitNormal
      cases triangleNormal pts [0, 1, 2] o.1 <;> rfl
    rw [this]
    cases (facesInOrder fs).mapM fun o => triangleNormal pts [0, 1, 2] o.1 with
    | error e => exact ⟨fun h => (nomatch h), fun ⟨_, ys, h, _⟩ => (nomatch h)⟩
    | ok vs =>
      constructor
      · intro h
        exact ⟨h0, _, rfl, Except.ok.inj h⟩
      · rintro ⟨-, ys, h1, h2⟩
        cases h1
        exact congrArg Except.ok h2

theorem faceAreas_loop {pts : List (P3 ℝ)} {fs : List (List (List ℕ))} (ht : TrianglesFirst fs)
    (hlen : ∀ i a f, FaceAt fs i a f → f.length = 3 ∨ f.length = 4) {as : List (List ℝ)} :
    faceAreas pts fs = .ok as ↔ facesInOrder fs ≠ [] ∧ fs.mapM (fun row => row.mapM (faceArea pts)) = .ok as := by
  rw [← gather_loop ht hlen]
  unfold faceAreas
  by_cases h0 : facesInOrder fs = []
  · rw [if_pos h0]
    exact ⟨fun h => (nomatch h), fun h => absurd h0 h.1⟩
  · rw [if_neg h0]
    cases (facesInOrder fs).mapM fun o => faceArea pts o.1 with
    | error e => exact ⟨fun h => (nomatch h), fun ⟨_, ys, h, _⟩ => (nomatch h)⟩
    | ok vs =>
      constructor
      · intro h
        exact ⟨h0, _, rfl, Except.ok.inj h⟩
      · rintro ⟨-, ys, h1, h2⟩
        cases h1
        exact congrArg Except.ok h2

end Verif.Mesh
