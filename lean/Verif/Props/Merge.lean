import Verif.Spec.Merge

/-!
# Default rock parameters (C54)
-/

namespace Verif.Props
open Verif.Py Verif.Model Verif.Spec

theorem takes_or {α : Type} (own dflt : Option α) (last : α) :
    Takes own dflt last ((own.or dflt).getD last) := by
  cases own <;> cases dflt <;> rfl

/-- C54. Every simple parameter of a rock that is written is the one of the rock,
else the one of `default`, else missing; the two models of TOUGH-FLAC follow the
same rule; relative permeability, capillarity and initial condition are the ones
of the rock alone. No rock is lost, added or moved. -/
theorem C54_defaults (p : Params) :
    (p.merged.map (·.1) = p.rocks.map (·.1)) ∧
    ∀ k r, (k, r) ∈ p.merged → ∃ q, (k, q) ∈ p.rocks ∧
      Takes q.density p.dflt.density .none r.density ∧
      Takes q.porosity p.dflt.porosity .none r.porosity ∧
      Takes q.permeability p.dflt.permeability (.one .none) r.permeability ∧
      Takes q.conductivity p.dflt.conductivity .none r.conductivity ∧
      Takes q.specificHeat p.dflt.specificHeat .none r.specificHeat ∧
      Takes q.compressibility p.dflt.compressibility .none r.compressibility ∧
      Takes q.expansivity p.dflt.expansivity .none r.expansivity ∧
      Takes q.conductivityDry p.dflt.conductivityDry .none r.conductivityDry ∧
      Takes q.tortuosity p.dflt.tortuosity .none r.tortuosity ∧
      Takes q.klinkenberg p.dflt.klinkenberg .none r.klinkenberg ∧
      Takes q.dist3 p.dflt.dist3 .none r.dist3 ∧
      Takes q.dist4 p.dflt.dist4 .none r.dist4 ∧
      r.relPerm = q.relPerm ∧ r.cap = q.cap ∧ r.initCond = q.initCond ∧
      Takes q.permModel p.dflt.permModel ⟨.int 1, []⟩ (flacModels r).1 ∧
      Takes q.eqPore p.dflt.eqPore ⟨.int 3, []⟩ (flacModels r).2 := by
  constructor
  · simp [Params.merged]
  · intro k r h
    simp only [Params.merged, List.mem_map, Prod.mk.injEq] at h
    obtain ⟨e, he, rfl, rfl⟩ := h
    exact ⟨e.2, he, takes_or _ _ _, takes_or _ _ _, takes_or _ _ _, takes_or _ _ _, takes_or _ _ _,
      takes_or _ _ _, takes_or _ _ _, takes_or _ _ _, takes_or _ _ _, takes_or _ _ _,
      takes_or _ _ _, takes_or _ _ _, rfl, rfl, rfl, takes_or _ _ _, takes_or _ _ _⟩

/-- C54. An explicit `None` in the rock hides the default. -/
theorem C54_none_hides_default (d r : RawRock) (h : r.density = some .none) :
    (mergeRock d r).density = .none := by
  simp [mergeRock, h]

/-- A rock without any parameter. -/
def bareRock : RawRock :=
  ⟨none, none, none, none, none, none, none, none, none, none, none, none, none, none, none, none,
    none⟩

example : let d : RawRock := { bareRock with density := some (.int 2600), porosity := some (.int 1) }
    let r : RawRock := { bareRock with density := some .none, tortuosity := some (.int 3) }
    r.density = some .none ∧ (mergeRock d r).porosity = .int 1 ∧
      (mergeRock d r).tortuosity = .int 3 := by
  decide

end Verif.Props
