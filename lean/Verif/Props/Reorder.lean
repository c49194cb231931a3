import Verif.Lemmas.Reorder
import Verif.Props.Connections
import Verif.Props.Moved
import Verif.Props.Geometry

/-!
# C106: the order of the cells does not matter

`τ` gives the new number of each cell. The inverse of `τ` leads back, so what is refused for one mesh
is refused for the other.
-/

namespace Verif.Mesh
open Verif.Py Verif.Model Verif.Spec Verif.Props

variable {K D D' : Type} {τ : Equiv.Perm ℕ}

/-- C106. Every order has its inverse. -/
theorem C106_inverse {m : Mesh K D} {m' : Mesh K D'} (h : IsReordered τ m m') : IsReordered τ.symm m' m :=
  ⟨h.points.symm, h.cells.symm, h.full', h.full⟩

/-- C106. Every cell keeps its centre. -/
theorem C106_centers [Field K] {m : Mesh K D} {m' : Mesh K D'} (h : IsReordered τ m m') {cs : List (P3 K)}
    (hc : centers m = .ok cs) : ∃ cs', centers m' = .ok cs' ∧ Reordered τ cs cs' := by
  rw [centers_typed h.full] at hc
  rw [centers_typed h.full', h.points]
  split at hc
  · cases hc
  · rename_i hn
    rw [if_neg (by rw [h.cells.nil]; exact hn)]
    exact mapM_reordered h.cells hc

/-- C106. Every cell keeps its volume. -/
theorem C106_volumes [Field K] [LinearOrder K] {m : Mesh K D} {m' : Mesh K D'} (h : IsReordered τ m m') {vs : List K}
    (hv : volumes m = .ok vs) : ∃ vs', volumes m' = .ok vs' ∧ Reordered τ vs vs' := by
  rw [volumes_typed h.full] at hv
  rw [volumes_typed h.full', h.points]
  split at hv
  · cases hv
  · rename_i hn
    rw [if_neg (by rw [h.cells.nil]; exact hn)]
    exact mapM_reordered h.cells hv

/-- C106. Every cell keeps its faces. -/
theorem C106_faces {m : Mesh K D} {m' : Mesh K D'} (h : IsReordered τ m m') {fs : List (List (List ℕ))}
    (hf : faces m.cells = .ok fs) : ∃ fs', faces m'.cells = .ok fs' ∧ Reordered τ fs fs' := by
  rw [faces_typed] at hf
  rw [faces_typed]
  exact mapM_reordered h.cells hf

/-- C106. Every cell keeps its neighbours, which have their new numbers. -/
theorem C106_connections {m : Mesh K D} {m' : Mesh K D'} (h : IsReordered τ m m') {t : List (List ℤ)}
    (hc : connections m.cells = .ok t) : ∃ t', connections m'.cells = .ok t' ∧
      ∀ i a, tableAt t' (τ i) a = (tableAt t i a).map (newNumber τ) := by
  unfold connections at hc ⊢
  rw [bind_eq_ok] at hc
  obtain ⟨fs, h1, h2⟩ := hc
  cases h2
  obtain ⟨fs', h3, h4⟩ := C106_faces h h1
  rw [h3]
  exact ⟨_, rfl, fun i a => connectionsOf_reordered h4 (fun i a f hf => (faces_bounds h1 i a f hf).2) i a⟩

/-- C106. The same pairs of cells are connections of the MESH file, in one order or the other. -/
theorem C106_written {m : Mesh K D} {m' : Mesh K D'} (h : IsReordered τ m m') {t t' : List (List ℤ)}
    (hc : connections m.cells = .ok t) (hc' : connections m'.cells = .ok t') (i j : ℕ) :
    Connected (writtenConnections t') (τ i) (τ j) ↔ Connected (writtenConnections t) i j := by
  have key : ∀ (cells : List CellBlock) (t : List (List ℤ)), connections cells = .ok t → ∀ i j : ℕ,
      Connected (writtenConnections t) i j ↔ ∃ a, tableAt t i a = some (j : ℤ) := by
    intro cells t ht i j
    unfold connections at ht
    rw [bind_eq_ok] at ht
    obtain ⟨fs, h1, h2⟩ := ht
    cases h2
    have hw : ∀ i j a, (i, j, a) ∈ writtenConnections (connectionsOf fs) ↔
        tableAt (connectionsOf fs) i a = some (j : ℤ) ∧ i ≤ j := by
      intro i j a
      unfold writtenConnections
      rw [mem_connRows _ 0 [] (by simp)]
      constructor
      · rintro ⟨d, rfl, e1, e2⟩
        rw [Nat.zero_add] at *
        exact ⟨e1, e2⟩
      · rintro ⟨e1, e2⟩
        exact ⟨i, (Nat.zero_add i).symm, e1, e2⟩
    unfold Connected
    simp only [hw]
    constructor
    · rintro ⟨a, ⟨e, -⟩ | ⟨e, -⟩⟩
      · exact ⟨a, e⟩
      · exact C42_symmetric cells fs h1 j i ⟨a, e⟩
    · rintro ⟨a, e⟩
      by_cases hij : i ≤ j
      · exact ⟨a, .inl ⟨e, hij⟩⟩
      · obtain ⟨b, eb⟩ := C42_symmetric cells fs h1 i j ⟨a, e⟩
        exact ⟨b, .inr ⟨eb, by omega⟩⟩
  rw [key _ _ hc', key _ _ hc]
  obtain ⟨t'', h1, h2⟩ := C106_connections h hc
  rw [hc'] at h1
  cases h1
  refine exists_congr fun a => ?_
  rw [h2]
  cases tableAt t i a with
  | none => simp
  | some k =>
    rw [Option.map_some, Option.some.injEq, Option.some.injEq, newNumber]
    split
    · omega
    · constructor
      · intro e
        have := τ.injective (Int.ofNat.inj e)
        omega
      · rintro rfl
        rw [Int.toNat_natCast]

/-- C106. The faces of every cell keep their directions and areas. -/
theorem C106_geometry {m : Mesh ℝ D} {m' : Mesh ℝ D'} (h : IsReordered τ m m') {fs : List (List (List ℕ))}
    (hf : faces m.cells = .ok fs) : ∃ fs', faces m'.cells = .ok fs' ∧
      (∀ ns, faceNormals m.points fs = .ok ns → ∃ ns', faceNormals m'.points fs' = .ok ns' ∧ Reordered τ ns ns') ∧
      ∀ as, faceAreas m.points fs = .ok as → ∃ as', faceAreas m'.points fs' = .ok as' ∧ Reordered τ as as' := by
  obtain ⟨fs', h1, h2⟩ := C106_faces h hf
  have hl := fun i a f hfa => (faces_bounds hf i a f hfa).2
  have hl' := fun i a f hfa => (faces_bounds h1 i a f hfa).2
  have ht := trianglesFirst_faces hf
  have ht' := trianglesFirst_faces h1
  refine ⟨fs', h1, fun ns hn => ?_, fun as ha => ?_⟩
  · rw [faceNormals_loop ht hl] at hn
    obtain ⟨ns', e1, e2⟩ := mapM_reordered h2 hn.2
    refine ⟨ns', ?_, e2⟩
    rw [faceNormals_loop ht' hl', h.points]
    exact ⟨fun h0 => hn.1 ((facesInOrder_reordered h2).1 h0), e1⟩
  · rw [faceAreas_loop ht hl] at ha
    obtain ⟨as', e1, e2⟩ := mapM_reordered h2 ha.2
    refine ⟨as', ?_, e2⟩
    rw [faceAreas_loop ht' hl', h.points]
    exact ⟨fun h0 => ha.1 ((facesInOrder_reordered h2).1 h0), e1⟩

/-- C106. A connection whose cells stay in their order is written again, at the same face of the first
cell, and all that its row is made of is the same. Missing: connections whose cells change places,
for which this is wrong (`C106_area_violated`). -/
theorem C106_rows_partial {m : Mesh ℝ D} {m' : Mesh ℝ D'} (h : IsReordered τ m m') {t t' : List (List ℤ)}
    (hc : connections m.cells = .ok t) (hc' : connections m'.cells = .ok t')
    {fs fs' : List (List (List ℕ))} (hf : Reordered τ fs fs') {nodes nodes' : List (P3 ℝ)} (hn : Reordered τ nodes nodes')
    {ns ns' : List (List (P3 ℝ))} (hs : Reordered τ ns ns') {as as' : List (List ℝ)} (ha : Reordered τ as as')
    {bs bs' : List Bool} (hb : Reordered τ bs bs') {i j a : ℕ} (hw : (i, j, a) ∈ writtenConnections t)
    (hij : τ i ≤ τ j) :
    (τ i, τ j, a) ∈ writtenConnections t' ∧
      interfaceOf m'.points nodes' fs' ns' as' bs' (τ i, τ j, a) = interfaceOf m.points nodes fs ns as bs (i, j, a) := by
  constructor
  · obtain ⟨t'', h1, h2⟩ := C106_connections h hc
    rw [hc'] at h1
    cases h1
    unfold writtenConnections at hw ⊢
    rw [mem_connRows _ 0 [] (by simp)] at hw ⊢
    obtain ⟨d, e1, e2, -⟩ := hw
    rw [Nat.zero_add] at e1
    subst e1
    refine ⟨τ i, (Nat.zero_add _).symm, ?_, hij⟩
    rw [h2, e2, Option.map_some, newNumber, if_neg (by omega), Int.toNat_natCast]
  · have key : ∀ {α : Type} {l l' : List α}, Reordered τ l l' → ∀ k, itemAt l' (τ k) = itemAt l k := by
      intro α l l' hr k
      unfold itemAt
      rw [hr k]
    unfold interfaceOf
    simp only [key hn, key hf, key hs, key ha, key hb, h.points]

/-- The tetrahedra of C102 in the other order. -/
def tetrasOther : Mesh ℝ ℤ where
  points := tetrasReal.points
  cells := tetrasReal.cells.map fun b => ⟨b.type, b.data.reverse⟩
  pointData := []
  cellData := []
  fieldData := []

example : IsReordered (Equiv.swap 0 1) tetrasReal tetrasOther := by
  refine ⟨rfl, ?_, by decide, by decide⟩
  intro i
  match i with
  | 0 => rw [Equiv.swap_apply_left]; decide
  | 1 => rw [Equiv.swap_apply_right]; decide
  | i + 2 =>
    rw [Equiv.swap_apply_of_ne_of_ne (by omega) (by omega)]
    rfl

example : ∃ t t', connections tetrasReal.cells = .ok t ∧ connections tetrasOther.cells = .ok t' ∧
    Connected (writtenConnections t) 0 1 :=
  ⟨_, _, rfl, rfl, 0, by decide⟩

/-- The same tetrahedra and another one. -/
def tetrasThree : Mesh ℝ ℤ where
  points := tetrasReal.points
  cells := [⟨.tetra, [[0, 1, 2, 3], [1, 2, 3, 4], [0, 1, 2, 4]]⟩]
  pointData := []
  cellData := []
  fieldData := []

/-- The last two have changed places. -/
def tetrasTurned : Mesh ℝ ℤ where
  points := tetrasReal.points
  cells := [⟨.tetra, [[0, 1, 2, 3], [0, 1, 2, 4], [1, 2, 3, 4]]⟩]
  pointData := []
  cellData := []
  fieldData := []

example : IsReordered (Equiv.swap 1 2) tetrasThree tetrasTurned ∧ (∃ t t', connections tetrasThree.cells = .ok t ∧
    connections tetrasTurned.cells = .ok t' ∧ (0, 1, 0) ∈ writtenConnections t) ∧
    (Equiv.swap 1 2 : Equiv.Perm ℕ) 0 ≤ Equiv.swap 1 2 1 := by
  refine ⟨⟨rfl, ?_, by decide, by decide⟩, ⟨_, _, rfl, rfl, by decide +kernel⟩, by decide⟩
  intro i
  match i with
  | 0 => decide
  | 1 => rw [Equiv.swap_apply_left]; decide
  | 2 => rw [Equiv.swap_apply_right]; decide
  | i + 3 =>
    rw [Equiv.swap_apply_of_ne_of_ne (by omega) (by omega)]
    rfl

/-! ### Faces that are not plane -/

/-- Four points that are not in a plane, one point above them and one below. -/
def bentPoints : List (P3 ℝ) := [⟨0, 0, 0⟩, ⟨1, 0, 0⟩, ⟨1, 1, 1⟩, ⟨0, 1, 0⟩, ⟨0, 0, 2⟩, ⟨1, 1, -2⟩]

/-- Two pyramids on the four points. -/
def bentMesh : Mesh ℝ ℤ := ⟨bentPoints, [⟨.pyramid, [[0, 1, 2, 3, 4], [1, 0, 3, 2, 5]]⟩], [], [], []⟩

/-- The same pyramids in the other order. -/
def bentOther : Mesh ℝ ℤ := ⟨bentPoints, [⟨.pyramid, [[1, 0, 3, 2, 5], [0, 1, 2, 3, 4]]⟩], [], [], []⟩

/-- The area of the one connection of two cells, at face 4 of the first one. -/
theorem bent_area {cells : List CellBlock} {fs : List (List (List ℕ))} (hf : faces cells = .ok fs)
    (hv : ∀ row ∈ fs, ∀ f ∈ row, ∀ v ∈ f, v < bentPoints.length)
    (hw : writtenConnections (connectionsOf fs) = [(0, 1, 4)]) {f : List ℕ} (ha : FaceAt fs 0 4 f) {A : ℝ}
    (hA : faceArea bentPoints f = .ok A) (opt : NodalDistance) (c1 c2 : P3 ℝ) :
    ∃ r, conneRows opt bentPoints [c1, c2] fs [false, false] = .ok [r] ∧ r.area = A := by
  have hl := fun i a f hfa => (faces_bounds hf i a f hfa).2
  have ht := trianglesFirst_faces hf
  obtain ⟨row, h1, h2⟩ := ha
  have hne : fs ≠ [] := by
    rintro rfl
    cases h1
  obtain ⟨⟨ns, hn⟩, as, has⟩ := C58_total cells fs hf hne bentPoints hv
  have en := (faceNormals_loop ht hl).1 hn
  have ea := (faceAreas_loop ht hl).1 has
  obtain ⟨nr, n1, n2⟩ := forall₂_some (mapM_eq_ok en.2) h1
  obtain ⟨n, n3, -⟩ := forall₂_some (mapM_eq_ok n2) h2
  obtain ⟨ar, a1, a2⟩ := forall₂_some (mapM_eq_ok ea.2) h1
  obtain ⟨A', a3, a4⟩ := forall₂_some (mapM_eq_ok a2) h2
  rw [hA] at a4
  cases a4
  have hb := (faces_bounds hf 0 4 f ⟨row, h1, h2⟩).2
  obtain ⟨v, hv0⟩ : ∃ v, f[0]? = some v := ⟨f[0]'(by omega), List.getElem?_eq_getElem _⟩
  have hvl : v < bentPoints.length := hv row (List.mem_of_getElem? h1) f (List.mem_of_getElem? h2) v
    (List.mem_of_getElem? hv0)
  have hi : interfaceOf bentPoints [c1, c2] fs ns as [false, false] (0, 1, 4) =
      .ok ⟨c1, c2, bentPoints[v], n, A, false, false⟩ := by
    unfold interfaceOf itemAt
    simp only [h1, h2, hv0, n1, n3, a1, a3, List.getElem?_eq_getElem hvl, ok_bind, List.getElem?_cons_zero,
      List.getElem?_cons_succ]
  unfold conneRows
  rw [hn, has]
  simp only [ok_bind]
  unfold connRowsOf
  simp only [hw, List.mapM_cons, List.mapM_nil, hi, ok_bind]
  exact ⟨_, rfl, rfl⟩

/-- C106. The area of a connection depends on the order of the cells if the face between them is not
plane: it is cut along the diagonal that the first cell gives. -/
theorem C106_area_violated : IsReordered (Equiv.swap 0 1) bentMesh bentOther ∧
    ∃ fs fs', faces bentMesh.cells = .ok fs ∧ faces bentOther.cells = .ok fs' ∧
      ∀ opt c1 c2, ∃ r r', conneRows opt bentMesh.points [c1, c2] fs [false, false] = .ok [r] ∧
        conneRows opt bentOther.points [c2, c1] fs' [false, false] = .ok [r'] ∧ r.area ≠ r'.area := by
  refine ⟨⟨rfl, ?_, by decide, by decide⟩, ?_⟩
  · intro i
    match i with
    | 0 => rw [Equiv.swap_apply_left]; decide
    | 1 => rw [Equiv.swap_apply_right]; decide
    | i + 2 =>
      rw [Equiv.swap_apply_of_ne_of_ne (by omega) (by omega)]
      rfl
  have hl : bentPoints.length = 6 := rfl
  have hA : faceArea bentPoints [0, 3, 2, 1] = .ok √2 := by
    show Except.ok _ = Except.ok _
    congr 1
    unfold norm3 dot cross P3.sub
    norm_num
    ring_nf
  have hB : faceArea bentPoints [1, 2, 3, 0] = .ok ((√3 + 1) * 0.5) := by
    show Except.ok _ = Except.ok _
    congr 1
    unfold norm3 dot cross P3.sub
    norm_num
  have h1 := bent_area (cells := bentMesh.cells) rfl (by rw [hl]; decide) (by decide +kernel)
    ⟨_, rfl, rfl⟩ hA
  have h2 := bent_area (cells := bentOther.cells) rfl (by rw [hl]; decide) (by decide +kernel)
    ⟨_, rfl, rfl⟩ hB
  refine ⟨_, _, rfl, rfl, fun opt c1 c2 => ?_⟩
  obtain ⟨r, e1, e2⟩ := h1 opt c1 c2
  obtain ⟨r', e3, e4⟩ := h2 opt c2 c1
  refine ⟨r, r', e1, e3, ?_⟩
  rw [e2, e4]
  intro h
  have q2 : √2 ^ 2 = (2 : ℝ) := Real.sq_sqrt (by norm_num)
  have q3 : √3 ^ 2 = (3 : ℝ) := Real.sq_sqrt (by norm_num)
  have h3 : √3 = 2 * √2 - 1 := by linarith
  rw [h3] at q3
  have h4 : √2 = (3 : ℝ) / 2 := by nlinarith
  rw [h4] at q2
  norm_num at q2

end Verif.Mesh
