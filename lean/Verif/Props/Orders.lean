import Verif.Lemmas.Order
import Verif.Lemmas.Ext

/-! # C31: the orders used as keys of ordered containers -/

namespace S2P
variable {α : Type} [FP α] [FPOrd α]

/-- C31 (points): a strict weak order on NaN-free points. -/
theorem C31_point_order : StrictWeak (V3.Ok (α := α)) order := order_strictWeak

/-- C31 (points): ties are exactly coordinatewise equality. -/
theorem C31_point_ties (a b : V3 α) (ha : a.Ok) (hb : b.Ok) :
    (order a b = false ∧ order b a = false) ↔
      (FP.eq a.x b.x = true ∧ FP.eq a.y b.y = true ∧ FP.eq a.z b.z = true) := by
  rw [order_tie a b ha hb]; simp [V3.eqv, and_assoc]

/-- C31 (edges): a strict weak order on edges with NaN-free ends. -/
theorem C31_edge_order : StrictWeak (fun e : Edge α => e.1.Ok ∧ e.2.Ok) edgeOrder := edgeOrder_strictWeak

/-- C31 (edges): ties are exactly coordinatewise equality. -/
theorem C31_edge_ties (a b : Edge α) (ha : a.1.Ok ∧ a.2.Ok) (hb : b.1.Ok ∧ b.2.Ok) :
    (edgeOrder a b = false ∧ edgeOrder b a = false) ↔
      ((FP.eq a.1.x b.1.x = true ∧ FP.eq a.1.y b.1.y = true ∧ FP.eq a.1.z b.1.z = true) ∧
       (FP.eq a.2.x b.2.x = true ∧ FP.eq a.2.y b.2.y = true ∧ FP.eq a.2.z b.2.z = true)) := by
  rw [edgeOrder_tie a b ha hb]; simp [V3.eqv, and_assoc]

/-- C31 (page lines): a strict weak order on NaN-free lines. -/
theorem C31_line_order : StrictWeak (fun l : Line α => l.o.Ok ∧ l.t.Ok) Line.lt := by
  rw [lineLt_eq_lex]
  exact lexStep_strictWeak _ _ _ (fun a h => h.1.1) (lexStep_strictWeak _ _ _ (fun a h => h.1.2)
    (lexStep_strictWeak _ _ _ (fun a h => h.2.1) (strictWeak_key _ (fun l : Line α => l.t.y) (fun a h => h.2.2))))

/-- C31 (page lines): ties are exactly the code's own `==` (geo.h:113-115), i.e. coordinatewise equality. -/
theorem C31_line_ties (a b : Line α) (ha : a.o.Ok ∧ a.t.Ok) (hb : b.o.Ok ∧ b.t.Ok) :
    ((Line.lt a b = false ∧ Line.lt b a = false) ↔
      (FP.eq a.o.x b.o.x = true ∧ FP.eq a.o.y b.o.y = true ∧ FP.eq a.t.x b.t.x = true ∧ FP.eq a.t.y b.t.y = true)) ∧
    (Line.eqv a b = true ↔
      (FP.eq a.o.x b.o.x = true ∧ FP.eq a.o.y b.o.y = true ∧ FP.eq a.t.x b.t.x = true ∧ FP.eq a.t.y b.t.y = true)) := by
  refine ⟨?_, by simp [Line.eqv, V2.eqv, and_assoc]⟩
  rw [lineLt_eq_lex, lexStep_tie (fun l : Line α => l.o.x) _ _ _ ha.1.1 hb.1.1,
    lexStep_tie (fun l : Line α => l.o.y) _ _ _ ha.1.2 hb.1.2,
    lexStep_tie (fun l : Line α => l.t.x) _ _ _ ha.2.1 hb.2.1, ← FPOrd.eq_iff _ _ ha.2.2 hb.2.2]

/-- two different NaN-free points, of which the first is the lesser -/
example : V3.Ok (V3.fin ⟨1, 2, 3⟩ : V3 (Ext ℚ)) ∧ V3.Ok (V3.fin ⟨1, 2, 4⟩ : V3 (Ext ℚ)) ∧
    order (V3.fin ⟨1, 2, 3⟩ : V3 (Ext ℚ)) (V3.fin ⟨1, 2, 4⟩) = true := by
  refine ⟨V3.ok_fin _, V3.ok_fin _, ?_⟩
  simp [order, V3.map]; norm_num
/-- an infinite coordinate is allowed, a NaN is not -/
example : FP.Ok (Ext.pinf : Ext ℚ) ∧ ¬ FP.Ok (Ext.nan : Ext ℚ) := by
  constructor
  · rfl
  · simp [FP.Ok, FP.eq, Ext.eq]

end S2P
