import Verif.Props.Func

/-!
# C42: a default-constructed PFlexFunction
-/

namespace Verif
variable {V O : Type}

/-- **C42** A default-constructed `PFlexFunction` has an empty name and no variables, in every history of the members that tell this; after `set` with consistent tables it is the function
the constructor makes of them. -/
theorem C42_default (b : FBase) (f : SObj V O) (g : List (SObj V O)) (h : List (List (SObj V O))) :
    (runCalls Flex.sem [.name, .size, .varNames, .varDescs, .name] (Flex.empty : Flex V O)).1 =
      [.ok (.str ""), .ok (.size 0), .ok (.strs []), .ok (.strs []), .ok (.str "")] ∧
    (b.varDesc.length = b.varName.length → g.length = b.varName.length → h.length = b.varName.length → (∀ r ∈ h, r.length = b.varName.length) →
      ∃ p, (Flex.empty : Flex V O).set b (some f) (g.map some) (h.map (·.map some)) = .ok p ∧
        Flex.make b (some f) (g.map some) (h.map (·.map some)) = .ok p ∧
        (runCalls Flex.sem [.name, .size, .varNames, .varDescs] p).1 =
          [.ok (.str b.name), .ok (.size b.varName.length), .ok (.strs b.varName), .ok (.strs b.varDesc)]) := by
  refine ⟨rfl, fun h1 h2 h3 h4 => ?_⟩
  obtain ⟨p, p1, p2, _⟩ := (C42_accepts_iff (Flex.empty : Flex V O) b f g h).1 ⟨h1, h2, h3, h4⟩
  refine ⟨p, p2, p1, ?_⟩
  have hb : p.base = b := by
    simp only [Flex.make] at p1
    split at p1
    · cases p1; rfl
    · cases p1
  rw [← hb]
  rfl

/-- A function of one variable, set on a default-constructed one. -/
example : ∃ p, (Flex.empty : Flex Int Int).set Demo.quad.base Demo.quad.val Demo.quad.grad Demo.quad.hess = .ok p ∧
    (runCalls Flex.sem [.name, .size] p).1 = [.ok (.str "quad"), .ok (.size 1)] := ⟨Demo.quad, rfl, rfl⟩

end Verif
