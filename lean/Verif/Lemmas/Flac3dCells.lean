import Verif.Lemmas.Flac3dState
import Verif.Lemmas.TecplotMesh

/-!
# Lemmas about FLAC3D mesh files: cells as they are written
-/

namespace Verif.Mesh
open Verif.Py Verif.Model Verif.Spec

theorem mapM_forall₂ {α β : Type} {f : α → Except PyErr β} {R : α → β → Prop} {xs : List α}
    (h : ∀ x ∈ xs, ∃ y, f x = .ok y ∧ R x y) : ∃ ys, xs.mapM f = .ok ys ∧ List.Forall₂ R xs ys := by
  induction xs with
  | nil => exact ⟨[], rfl, .nil⟩
  | cons x xs ih =>
    obtain ⟨y, hy, hr⟩ := h x (by simp)
    obtain ⟨ys, hys, hrs⟩ := ih fun x hx => h x (by simp [hx])
    exact ⟨y :: ys, by rw [List.mapM_cons, hy, ok_bind, hys]; rfl, .cons hr hrs⟩

/-- The dimension of zones and faces. -/
theorem flacType_solid (flag : FlacFlag) (t : CellType) :
    flacType flag t = match solidType t with
      | some (d, t', _) => if d = flag.dim then some t' else none
      | none => none := by
  cases t with
  | other name =>
    have key : ∀ (l : List (Str × CellType)) (L : List (Str × ℕ × CellType × ℕ)) (d : ℕ), (L.map (·.1)).Nodup →
        l = (L.filter (·.2.1 = d)).map (fun e => (e.1, e.2.2.1)) →
        (l.find? (·.1 = name)).map (·.2) = match (L.find? (·.1 = name)).map (·.2) with
          | some (d', t', _) => if d' = d then some t' else none
          | none => none := by
      intro l L d hn hl
      subst hl
      induction L with
      | nil => rfl
      | cons e L ih =>
        rw [List.map_cons] at hn
        obtain ⟨h1, h2⟩ := List.nodup_cons.1 hn
        by_cases hd : e.2.1 = d
        · by_cases hname : e.1 = name
          · simp [List.filter_cons, List.find?_cons, hd, hname]
          · have := ih h2
            simpa [List.filter_cons, List.find?_cons, hd, hname] using this
        · by_cases hname : e.1 = name
          · have hno : ∀ x ∈ L, x.1 ≠ name := by
              intro x hx hxn
              exact h1 (List.mem_map.2 ⟨x, hx, by rw [hxn, hname]⟩)
            have : ((L.filter (·.2.1 = d)).map (fun e => (e.1, e.2.2.1))).find? (·.1 = name) = none := by
              rw [List.find?_eq_none]
              intro x hx
              obtain ⟨y, hy, rfl⟩ := List.mem_map.1 hx
              simpa using hno y (List.mem_filter.1 hy).1
            simp [List.filter_cons, List.find?_cons, hd, hname, this]
          · have := ih h2
            simpa [List.filter_cons, List.find?_cons, hd, hname] using this
    exact key (flacHigher flag) curvedTypes flag.dim (by decide +kernel) (by cases flag <;> decide +kernel)
  | _ => cases flag <;> rfl

/-- The linear types. -/
theorem solidType_linear {t : CellType} {d n : ℕ} {t' : CellType} (h : solidType t = some (d, t', n)) :
    (d, t', n) ∈ [(2, CellType.triangle, 3), (2, .quad, 4), (3, .tetra, 4), (3, .pyramid, 5), (3, .wedge, 6),
      (3, .hexahedron, 8)] := by
  cases t with
  | other name =>
    rw [solidType] at h
    cases hf : curvedTypes.find? (fun x => decide (x.1 = name)) with
    | none => rw [hf] at h; cases h
    | some e =>
      rw [hf] at h
      have h2 := List.mem_of_find?_eq_some hf
      have h3 : ∀ e ∈ curvedTypes, e.2 ∈ [(2, CellType.triangle, 3), (2, .quad, 4), (3, .tetra, 4), (3, .pyramid, 5),
        (3, .wedge, 6), (3, .hexahedron, 8)] := by decide +kernel
      have := h3 e h2
      simp only [Option.map_some, Option.some.injEq] at h
      rw [← h]
      exact this
  | _ => rw [solidType] at h; cases h; simp

/-- What is known about a cell that is written. -/
structure CellWritten (flag : FlacFlag) (np : ℕ) (t : CellType) (c' : List ℕ) : Prop where
  count : flacCount flag c'.length = .ok t
  vertices : ∀ v ∈ c', v < np

theorem oriented_intro {α : Type} {pos : α → α → α → α → Bool} {points : List α} {t : CellType} {c c' : List ℕ}
    {p q r s : α} (hf : (frame t c).map (points[·]?) = [some p, some q, some r, some s])
    (h1 : pos p q r s = true → c' = c) (h2 : pos p q r s = false → c' = mirrored t c) :
    Oriented pos points (t, c) (t, c') := by
  refine ⟨rfl, ?_, ?_⟩
  · rintro ⟨p', q', r', s', h, hp⟩
    rw [hf] at h
    simp only [List.cons.injEq, Option.some.injEq, and_true] at h
    obtain ⟨rfl, rfl, rfl, rfl⟩ := h
    exact h1 hp
  · intro h
    apply h2
    cases hp : pos p q r s with
    | false => rfl
    | true => exact absurd ⟨p, q, r, s, hf, hp⟩ h

theorem flacZone_written {α : Type} (pos : α → α → α → α → Bool) {points : List α} {t : CellType} {n : ℕ}
    (ht : (3, t, n) ∈ [(2, CellType.triangle, 3), (2, .quad, 4), (3, .tetra, 4), (3, .pyramid, 5), (3, .wedge, 6),
      (3, .hexahedron, 8)]) {c : List ℕ} (hc : n ≤ c.length) (hv : ∀ v ∈ c, v < points.length) :
    ∃ c', flacZone pos points t c = .ok c' ∧ CellWritten .zone points.length t c' ∧
      Oriented pos points (t, c.take n) (t, perm (flacOrderBack t) c') := by
  simp only [List.mem_cons, List.not_mem_nil, or_false, Prod.mk.injEq] at ht
  have get : ∀ v ∈ c, ∃ p, points[v]? = some p := fun v h => ⟨_, List.getElem?_eq_getElem (hv v h)⟩
  rcases ht with h | h | ⟨-, rfl, rfl⟩ | ⟨-, rfl, rfl⟩ | ⟨-, rfl, rfl⟩ | ⟨-, rfl, rfl⟩
  · exact absurd h.1 (by decide)
  · exact absurd h.1 (by decide)
  · obtain ⟨a, b, d, e, rest, rfl⟩ : ∃ a b d e rest, c = a :: b :: d :: e :: rest := by
      rcases c with _ | ⟨a, _ | ⟨b, _ | ⟨d, _ | ⟨e, rest⟩⟩⟩⟩ <;> simp at hc
      exact ⟨a, b, d, e, rest, rfl⟩
    obtain ⟨p, hp⟩ := get a (by simp)
    obtain ⟨q, hq⟩ := get b (by simp)
    obtain ⟨r, hr⟩ := get d (by simp)
    obtain ⟨s, hs⟩ := get e (by simp)
    have e1 : flacZone pos points .tetra (a :: b :: d :: e :: rest) =
        if pos p q r s then .ok [a, b, d, e] else .ok [a, d, b, e] := by
      simp [flacZone, permute, flacOrder, flacOrder2, rowsAt, hp, hq, hr, hs]
    cases h : pos p q r s with
    | true =>
      refine ⟨[a, b, d, e], by rw [e1, h]; rfl, ⟨rfl, fun v hm => hv v (by simp at hm ⊢; tauto)⟩,
        oriented_intro (p := p) (q := q) (r := r) (s := s) (by simp [frame, hp, hq, hr, hs]) (fun _ => rfl) (by simp [h])⟩
    | false =>
      refine ⟨[a, d, b, e], by rw [e1, h]; rfl, ⟨rfl, fun v hm => hv v (by simp at hm ⊢; tauto)⟩,
        oriented_intro (p := p) (q := q) (r := r) (s := s) (by simp [frame, hp, hq, hr, hs]) (by simp [h]) (fun _ => rfl)⟩
  · obtain ⟨a, b, d, e, f, rest, rfl⟩ : ∃ a b d e f rest, c = a :: b :: d :: e :: f :: rest := by
      rcases c with _ | ⟨a, _ | ⟨b, _ | ⟨d, _ | ⟨e, _ | ⟨f, rest⟩⟩⟩⟩⟩ <;> simp at hc
      exact ⟨a, b, d, e, f, rest, rfl⟩
    obtain ⟨p, hp⟩ := get a (by simp)
    obtain ⟨q, hq⟩ := get b (by simp)
    obtain ⟨r, hr⟩ := get e (by simp)
    obtain ⟨s, hs⟩ := get f (by simp)
    have e1 : flacZone pos points .pyramid (a :: b :: d :: e :: f :: rest) =
        if pos p q r s then .ok [a, b, e, f, d] else .ok [a, e, b, f, d] := by
      simp [flacZone, permute, flacOrder, flacOrder2, rowsAt, hp, hq, hr, hs]
    cases h : pos p q r s with
    | true =>
      refine ⟨[a, b, e, f, d], by rw [e1, h]; rfl, ⟨rfl, fun v hm => hv v (by simp at hm ⊢; tauto)⟩,
        oriented_intro (p := p) (q := q) (r := r) (s := s) (by simp [frame, hp, hq, hr, hs]) (fun _ => rfl) (by simp [h])⟩
    | false =>
      refine ⟨[a, e, b, f, d], by rw [e1, h]; rfl, ⟨rfl, fun v hm => hv v (by simp at hm ⊢; tauto)⟩,
        oriented_intro (p := p) (q := q) (r := r) (s := s) (by simp [frame, hp, hq, hr, hs]) (by simp [h]) (fun _ => rfl)⟩
  · obtain ⟨a, b, d, e, f, g, rest, rfl⟩ : ∃ a b d e f g rest, c = a :: b :: d :: e :: f :: g :: rest := by
      rcases c with _ | ⟨a, _ | ⟨b, _ | ⟨d, _ | ⟨e, _ | ⟨f, _ | ⟨g, rest⟩⟩⟩⟩⟩⟩ <;> simp at hc
      exact ⟨a, b, d, e, f, g, rest, rfl⟩
    obtain ⟨p, hp⟩ := get a (by simp)
    obtain ⟨q, hq⟩ := get b (by simp)
    obtain ⟨r, hr⟩ := get e (by simp)
    obtain ⟨s, hs⟩ := get d (by simp)
    have e1 : flacZone pos points .wedge (a :: b :: d :: e :: f :: g :: rest) =
        if pos p q r s then .ok [a, b, e, d, f, g] else .ok [a, d, e, b, g, f] := by
      simp [flacZone, permute, flacOrder, flacOrder2, rowsAt, hp, hq, hr, hs]
    cases h : pos p q r s with
    | true =>
      refine ⟨[a, b, e, d, f, g], by rw [e1, h]; rfl, ⟨rfl, fun v hm => hv v (by simp at hm ⊢; tauto)⟩,
        oriented_intro (p := p) (q := q) (r := r) (s := s) (by simp [frame, hp, hq, hr, hs]) (fun _ => rfl) (by simp [h])⟩
    | false =>
      refine ⟨[a, d, e, b, g, f], by rw [e1, h]; rfl, ⟨rfl, fun v hm => hv v (by simp at hm ⊢; tauto)⟩,
        oriented_intro (p := p) (q := q) (r := r) (s := s) (by simp [frame, hp, hq, hr, hs]) (by simp [h]) (fun _ => rfl)⟩
  · obtain ⟨a, b, d, e, f, g, i, j, rest, rfl⟩ :
        ∃ a b d e f g i j rest, c = a :: b :: d :: e :: f :: g :: i :: j :: rest := by
      rcases c with _ | ⟨a, _ | ⟨b, _ | ⟨d, _ | ⟨e, _ | ⟨f, _ | ⟨g, _ | ⟨i, _ | ⟨j, rest⟩⟩⟩⟩⟩⟩⟩⟩ <;> simp at hc
      exact ⟨a, b, d, e, f, g, i, j, rest, rfl⟩
    obtain ⟨p, hp⟩ := get a (by simp)
    obtain ⟨q, hq⟩ := get b (by simp)
    obtain ⟨r, hr⟩ := get e (by simp)
    obtain ⟨s, hs⟩ := get f (by simp)
    have e1 : flacZone pos points .hexahedron (a :: b :: d :: e :: f :: g :: i :: j :: rest) =
        if pos p q r s then .ok [a, b, e, f, d, j, g, i] else .ok [a, e, b, f, d, g, j, i] := by
      simp [flacZone, permute, flacOrder, flacOrder2, rowsAt, hp, hq, hr, hs]
    cases h : pos p q r s with
    | true =>
      refine ⟨[a, b, e, f, d, j, g, i], by rw [e1, h]; rfl, ⟨rfl, fun v hm => hv v (by simp at hm ⊢; tauto)⟩,
        oriented_intro (p := p) (q := q) (r := r) (s := s) (by simp [frame, hp, hq, hr, hs]) (fun _ => rfl) (by simp [h])⟩
    | false =>
      refine ⟨[a, e, b, f, d, g, j, i], by rw [e1, h]; rfl, ⟨rfl, fun v hm => hv v (by simp at hm ⊢; tauto)⟩,
        oriented_intro (p := p) (q := q) (r := r) (s := s) (by simp [frame, hp, hq, hr, hs]) (by simp [h]) (fun _ => rfl)⟩

theorem flacFace_written {np : ℕ} {t : CellType} {n : ℕ}
    (ht : (2, t, n) ∈ [(2, CellType.triangle, 3), (2, .quad, 4), (3, .tetra, 4), (3, .pyramid, 5), (3, .wedge, 6),
      (3, .hexahedron, 8)]) {c : List ℕ} (hc : n ≤ c.length) (hv : ∀ v ∈ c, v < np) :
    ∃ c', permute (flacOrder t) c = .ok c' ∧ CellWritten .face np t c' ∧ perm (flacOrderBack t) c' = c.take n := by
  simp only [List.mem_cons, List.not_mem_nil, or_false, Prod.mk.injEq] at ht
  rcases ht with ⟨-, rfl, rfl⟩ | ⟨-, rfl, rfl⟩ | h | h | h | h
  · obtain ⟨a, b, d, rest, rfl⟩ : ∃ a b d rest, c = a :: b :: d :: rest := by
      rcases c with _ | ⟨a, _ | ⟨b, _ | ⟨d, rest⟩⟩⟩ <;> simp at hc
      exact ⟨a, b, d, rest, rfl⟩
    exact ⟨[a, b, d], rfl, ⟨rfl, fun v hm => hv v (by simp at hm ⊢; tauto)⟩, rfl⟩
  · obtain ⟨a, b, d, e, rest, rfl⟩ : ∃ a b d e rest, c = a :: b :: d :: e :: rest := by
      rcases c with _ | ⟨a, _ | ⟨b, _ | ⟨d, _ | ⟨e, rest⟩⟩⟩⟩ <;> simp at hc
      exact ⟨a, b, d, e, rest, rfl⟩
    exact ⟨[a, b, d, e], rfl, ⟨rfl, fun v hm => hv v (by simp at hm ⊢; tauto)⟩, rfl⟩
  all_goals exact absurd h.1 (by decide)

/-! ### all cells -/

/-- How one cell is written. -/
def flacWrite {α : Type} (pos : α → α → α → α → Bool) (points : List α) (flag : FlacFlag) (t : CellType)
    (c : List ℕ) : Except PyErr (List ℕ) :=
  match flag with
  | .zone => flacZone pos points t c
  | .face => permute (flacOrder t) c

theorem translate_gen {α : Type} (pos : α → α → α → α → Bool) (points : List α) (flag : FlacFlag)
    {R : CellType × List ℕ → CellType × List ℕ → Prop} : ∀ {cells : List CellBlock}
    (_ : ∀ b ∈ cells, ∀ t n, solidType b.type = some (flag.dim, t, n) → ∀ c ∈ b.data,
      ∃ c', flacWrite pos points flag t c = .ok c' ∧ CellWritten flag points.length t c' ∧
        R (t, c.take n) (t, perm (flacOrderBack t) c')),
    ∃ blocks, flacTranslate pos points cells flag = .ok blocks ∧
      (∀ e ∈ cellList blocks, CellWritten flag points.length e.1 e.2) ∧
      List.Forall₂ R (cornersOf flag.dim cells) ((cellList blocks).map fun e => (e.1, perm (flacOrderBack e.1) e.2)) ∧
      nCells blocks = nCells (flacBlocks flag cells)
  | [], _ => ⟨[], rfl, by simp [cellList], .nil, rfl⟩
  | b :: cells, h => by
    obtain ⟨blocks, h1, h2, h3, h4⟩ := translate_gen pos points flag (cells := cells) fun b' hb => h b' (by simp [hb])
    have hc : cornersOf flag.dim (b :: cells) =
        ((b.data.map fun c => (b.type, c)).filterMap fun e => match solidType e.1 with
          | some (d', t, n) => if d' = flag.dim then some (t, e.2.take n) else none
          | none => none) ++ cornersOf flag.dim cells := by
      rw [cornersOf, typedCells_cons, List.filterMap_append]
      rfl
    by_cases hs : ∃ t n, solidType b.type = some (flag.dim, t, n)
    · obtain ⟨t, n, hs⟩ := hs
      have ht : flacType flag b.type = some t := by rw [flacType_solid, hs]; simp
      obtain ⟨data, hd1, hd2⟩ := mapM_forall₂ (h b (by simp) t n hs)
      have hb : flacBlocks flag (b :: cells) = ⟨t, b.data⟩ :: flacBlocks flag cells := by
        simp [flacBlocks, ht]
      refine ⟨⟨t, data⟩ :: blocks, ?_, ?_, ?_, ?_⟩
      · rw [flacTranslate, hb, List.mapM_cons]
        rw [flacTranslate] at h1
        rw [h1]
        cases flag
        · have : b.data.mapM (fun c => flacZone pos points t c) = .ok data := hd1
          simp only [this, ok_bind]
          rfl
        · have : b.data.mapM (fun c => permute (flacOrder t) c) = .ok data := hd1
          simp only [this, ok_bind]
          rfl
      · intro e he
        rw [cellList, List.flatMap_cons, List.mem_append] at he
        rcases he with he | he
        · obtain ⟨c', hc', rfl⟩ := List.mem_map.1 he
          obtain ⟨i, hi, rfl⟩ := List.getElem_of_mem hc'
          have hl := hd2.length_eq
          have hi' : i < b.data.length := by rw [hl]; exact hi
          exact (List.Forall₂.get hd2 hi' hi).1
        · exact h2 e he
      · rw [hc, cellList, List.flatMap_cons, List.map_append]
        apply List.rel_append
        · rw [List.filterMap_map]
          have : (b.data.filterMap ((fun e : CellType × List ℕ => match solidType e.1 with
              | some (d', t, n) => if d' = flag.dim then some (t, e.2.take n) else none
              | none => none) ∘ fun c => (b.type, c))) = b.data.map fun c => (t, c.take n) := by
            rw [← List.filterMap_eq_map]
            apply List.filterMap_congr
            intro c _
            simp [hs]
          rw [this, List.map_map, List.forall₂_map_left_iff, List.forall₂_map_right_iff]
          exact hd2.imp fun _ _ h => h.2
        · exact h3
      · rw [hb]
        simp only [nCells, List.map_cons, List.sum_cons]
        have := hd2.length_eq
        simp only [nCells] at h4
        omega
    · have ht : flacType flag b.type = none := by
        rw [flacType_solid]
        cases hx : solidType b.type with
        | none => rfl
        | some e =>
          obtain ⟨d, t, n⟩ := e
          have : d ≠ flag.dim := fun hd => hs ⟨t, n, by rw [hx, hd]⟩
          simp [this]
      have hb : flacBlocks flag (b :: cells) = flacBlocks flag cells := by simp [flacBlocks, ht]
      have he : ((b.data.map fun c => (b.type, c)).filterMap fun e => match solidType e.1 with
          | some (d', t, n) => if d' = flag.dim then some (t, e.2.take n) else none
          | none => none) = [] := by
        rw [List.filterMap_eq_nil_iff]
        intro e he
        obtain ⟨c, _, rfl⟩ := List.mem_map.1 he
        cases hx : solidType b.type with
        | none => rfl
        | some e =>
          obtain ⟨d, t, n⟩ := e
          have : d ≠ flag.dim := fun hd => hs ⟨t, n, by rw [hx, hd]⟩
          simp [this]
      refine ⟨blocks, ?_, h2, ?_, ?_⟩
      · rw [flacTranslate, hb]
        exact h1
      · rw [hc, he]
        exact h3
      · rw [hb, h4]

theorem translate_zones (pos : P3 Flt → P3 Flt → P3 Flt → P3 Flt → Bool) {m : FlacMesh} (h : FlacOk m) :
    ∃ blocks, flacTranslate pos m.points m.cells .zone = .ok blocks ∧
      (∀ e ∈ cellList blocks, CellWritten .zone m.points.length e.1 e.2) ∧
      List.Forall₂ (Oriented pos m.points) (cornersOf 3 m.cells)
        ((cellList blocks).map fun e => (e.1, perm (flacOrderBack e.1) e.2)) ∧
      nCells blocks = nCells (flacBlocks .zone m.cells) := by
  refine translate_gen pos m.points .zone fun b hb t n hs c hc => ?_
  obtain ⟨h1, h2⟩ := h.vertices b hb _ _ _ hs c hc
  exact flacZone_written pos (solidType_linear hs) h1 h2

theorem translate_faces (pos : P3 Flt → P3 Flt → P3 Flt → P3 Flt → Bool) {m : FlacMesh} (h : FlacOk m) :
    ∃ blocks, flacTranslate pos m.points m.cells .face = .ok blocks ∧
      (∀ e ∈ cellList blocks, CellWritten .face m.points.length e.1 e.2) ∧
      (cellList blocks).map (fun e => (e.1, perm (flacOrderBack e.1) e.2)) = cornersOf 2 m.cells := by
  obtain ⟨blocks, h1, h2, h3, _⟩ := translate_gen pos m.points .face (R := Eq) (cells := m.cells)
    fun b hb t n hs c hc => by
      obtain ⟨h1, h2⟩ := h.vertices b hb _ _ _ hs c hc
      obtain ⟨c', e1, e2, e3⟩ := flacFace_written (solidType_linear hs) h1 h2
      exact ⟨c', e1, e2, by rw [e3]⟩
  exact ⟨blocks, h1, h2, (List.forall₂_eq_eq_eq ▸ h3).symm⟩

end Verif.Mesh
