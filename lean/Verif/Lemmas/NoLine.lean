import Verif.Spec.Lines

set_option linter.unusedSectionVars false
set_option linter.unusedVariables false
set_option linter.unusedSimpArgs false

namespace S2P
variable {α : Type} [FP α]

/-- forgetting lines in a result -/
def mapOut {β γ : Type} (f : β → γ) : Except Abort (Option β) → Except Abort (Option γ)
  | .ok (some x) => .ok (some (f x))
  | .ok none => .ok none
  | .error e => .error e

/-- forgetting lines in a value and in the unread items -/
def pairOut {β γ : Type} (f : β → γ) (x : β × List (Item α)) : γ × List (Item α) := (f x.1, x.2.map Item.noLine)

theorem stop_noLine {β γ : Type} (f : β → γ) (its : List (Item α)) : stop (its.map Item.noLine) = mapOut f (stop its) := by
  rcases its with _ | ⟨⟨t, l⟩ | _ | _, its⟩ <;> rfl

theorem expect_noLine {β γ : Type} (f : β → γ) (c : Char) (k : List (Item α) → Except Abort (Option β))
    (k' : List (Item α) → Except Abort (Option γ)) (h : ∀ its, k' (its.map Item.noLine) = mapOut f (k its)) (its : List (Item α)) :
    expect c k' (its.map Item.noLine) = mapOut f (expect c k its) := by
  rcases its with _ | ⟨⟨t, l⟩ | _ | _, its⟩
  · rfl
  · cases t with
    | p d =>
      simp only [List.map_cons, Item.noLine, expect]
      split_ifs with hd
      · exact h its
      · rfl
    | _ => rfl
  · rfl
  · rfl

theorem number_noLine {β γ : Type} (f : β → γ) (k : α → List (Item α) → Except Abort (Option β))
    (k' : α → List (Item α) → Except Abort (Option γ)) (h : ∀ x its, k' x (its.map Item.noLine) = mapOut f (k x its)) (its : List (Item α)) :
    number k' (its.map Item.noLine) = mapOut f (number k its) := by
  rcases its with _ | ⟨⟨t, l⟩ | _ | _, its⟩
  · rfl
  · cases t with
    | num d => exact h _ _
    | _ => rfl
  · rfl
  · rfl

theorem ident_noLine {β γ : Type} (f : β → γ) (k : Str → Nat → List (Item α) → Except Abort (Option β))
    (k' : Str → Nat → List (Item α) → Except Abort (Option γ)) (h : ∀ x l its, k' x 0 (its.map Item.noLine) = mapOut f (k x l its)) (its : List (Item α)) :
    ident k' (its.map Item.noLine) = mapOut f (ident k its) := by
  rcases its with _ | ⟨⟨t, l⟩ | _ | _, its⟩
  · rfl
  · cases t with
    | id d => exact h _ _ _
    | _ => rfl
  · rfl
  · rfl

theorem strLit_noLine {β γ : Type} (f : β → γ) (k : Str → List (Item α) → Except Abort (Option β))
    (k' : Str → List (Item α) → Except Abort (Option γ)) (h : ∀ x its, k' x (its.map Item.noLine) = mapOut f (k x its)) (its : List (Item α)) :
    strLit k' (its.map Item.noLine) = mapOut f (strLit k its) := by
  rcases its with _ | ⟨⟨t, l⟩ | _ | _, its⟩
  · rfl
  · cases t with
    | str d => exact h _ _
    | _ => rfl
  · rfl
  · rfl

theorem andThen_noLine {β γ β' γ' : Type} (f : β → β') (g : γ → γ') (r : PRes β α) (r' : PRes β' α) (k : β → List (Item α) → Except Abort (Option γ))
    (k' : β' → List (Item α) → Except Abort (Option γ')) (hr : r' = mapOut (pairOut f) r)
    (h : ∀ v its, k' (f v) (its.map Item.noLine) = mapOut g (k v its)) :
    andThen r' k' = mapOut g (andThen r k) := by
  subst hr
  rcases r with e | _ | ⟨v, its⟩
  · rfl
  · rfl
  · exact h v its

theorem done_noLine {β γ : Type} (f : β → γ) (v : β) (its : List (Item α)) :
    done (f v) (its.map Item.noLine) = mapOut (pairOut f) (done v its) := rfl

theorem parseLocation_noLine (its : List (Item α)) : parseLocation (its.map Item.noLine) = mapOut (pairOut id) (parseLocation its) := by
  refine number_noLine _ _ _ (fun a its => ?_) its
  refine expect_noLine _ _ _ _ (fun its => ?_) its
  refine number_noLine _ _ _ (fun b its => ?_) its
  exact expect_noLine _ _ _ _ (fun its => done_noLine id _ its) its

theorem pointTail_noLine (l : Nat) (its : List (Item α)) :
    pointTail 0 (its.map Item.noLine) = mapOut (pairOut Pt.noLine) (pointTail l its) := by
  refine number_noLine _ _ _ (fun a its => ?_) its
  refine expect_noLine _ _ _ _ (fun its => ?_) its
  refine number_noLine _ _ _ (fun b its => ?_) its
  refine expect_noLine _ _ _ _ (fun its => ?_) its
  refine number_noLine _ _ _ (fun c its => ?_) its
  exact expect_noLine _ _ _ _ (fun its => done_noLine Pt.noLine (.val ⟨a, b, c⟩ l) its) its

theorem parsePoint_noLine (k : Nat) : ∀ its : List (Item α), its.length ≤ k →
    parsePoint (its.map Item.noLine) = mapOut (pairOut Pt.noLine) (parsePoint its) := by
  induction k with
  | zero =>
    intro its h
    have : its = [] := List.length_eq_zero_iff.1 (by omega)
    subst this; simp [parsePoint, stop, mapOut]
  | succ k ih =>
    intro its hlen
    rcases its with _ | ⟨⟨t, l⟩ | _ | _, its⟩
    · simp [parsePoint, stop, mapOut]
    · cases t with
      | p c =>
        simp only [List.map_cons, Item.noLine, parsePoint]
        split_ifs
        · exact pointTail_noLine l its
        · rfl
      | id n =>
        rcases its with _ | ⟨⟨t, l'⟩ | _ | _, its⟩
        · simp [parsePoint, stop, mapOut, Item.noLine]
        · cases t with
          | p c =>
            simp only [List.map_cons, Item.noLine, parsePoint]
            split_ifs
            · refine andThen_noLine Pt.noLine _ _ _ _ _ (ih its (by simp at hlen; omega)) (fun v its => ?_)
              exact expect_noLine _ _ _ _ (fun its => done_noLine Pt.noLine (.func n v l) its) its
            · rfl
          | _ => simp [parsePoint, stop, mapOut, Item.noLine]
        · simp [parsePoint, stop, mapOut, Item.noLine]
        · simp [parsePoint, stop, mapOut, Item.noLine]
      | _ => simp [parsePoint, stop, mapOut, Item.noLine]
    · simp [parsePoint, stop, mapOut, Item.noLine]
    · simp [parsePoint, stop, mapOut, Item.noLine]

theorem parseStrs_noLine (its : List (Item α)) : ∀ acc, parseStrs acc (its.map Item.noLine) = ((parseStrs acc its).1, (parseStrs acc its).2.map Item.noLine) := by
  induction its with
  | nil => intro acc; rfl
  | cons i its ih =>
    intro acc
    rcases i with ⟨t, l⟩ | _ | _
    · cases t with
      | str s => simp only [List.map_cons, Item.noLine, parseStrs]; exact ih _
      | _ => rfl
    · rfl
    · rfl

theorem lookAhead_noLine {β γ : Type} (f : β → γ) (v : β) (its : List (Item α)) :
    lookAhead (f v) (its.map Item.noLine) = mapOut (pairOut f) (lookAhead v its) := by
  rcases its with _ | ⟨⟨t, l⟩ | _ | _, its⟩ <;> rfl

theorem mkScale_noLine (a b : α) (its : List (Item α)) :
    mkScale a b (its.map Item.noLine) = mapOut (pairOut MetaVal.noLine) (mkScale a b its) := by
  unfold mkScale
  cases FP.toInt a <;> cases FP.toInt b <;> rfl

theorem valNum_noLine (a : α) (its : List (Item α)) :
    valNum a (its.map Item.noLine) = mapOut (pairOut MetaVal.noLine) (valNum a its) := by
  rcases its with _ | ⟨⟨t, l⟩ | _ | _, its⟩
  · rfl
  · cases t with
    | p c =>
      simp only [List.map_cons, Item.noLine, valNum]
      split_ifs
      · exact number_noLine _ _ _ (fun b its => mkScale_noLine a b its) its
      · rfl
    | _ => rfl
  · rfl
  · rfl

theorem valPair_noLine (l : Nat) (a b : α) (its : List (Item α)) :
    valPair 0 a b (its.map Item.noLine) = mapOut (pairOut MetaVal.noLine) (valPair l a b its) := by
  rcases its with _ | ⟨⟨t, l'⟩ | _ | _, its⟩
  · rfl
  · cases t with
    | p c =>
      simp only [List.map_cons, Item.noLine, valPair]
      split_ifs
      · rfl
      · refine number_noLine _ _ _ (fun c its => ?_) its
        exact expect_noLine _ _ _ _ (fun its => done_noLine MetaVal.noLine (.pt (.val ⟨a, b, c⟩ l)) its) its
      · rfl
    | _ => rfl
  · rfl
  · rfl

theorem parseVal_noLine (its : List (Item α)) :
    parseVal (its.map Item.noLine) = mapOut (pairOut MetaVal.noLine) (parseVal its) := by
  rcases its with _ | ⟨⟨t, l⟩ | _ | _, its⟩
  · rfl
  · cases t with
    | p c =>
      simp only [List.map_cons, Item.noLine, parseVal]
      split_ifs
      · refine number_noLine _ _ _ (fun a its => ?_) its
        refine expect_noLine _ _ _ _ (fun its => ?_) its
        exact number_noLine _ _ _ (fun b its => valPair_noLine l a b its) its
      · rfl
    | str s =>
      simp only [List.map_cons, Item.noLine, parseVal, parseStrs_noLine]
      exact lookAhead_noLine MetaVal.noLine (.str (parseStrs s its).1) _
    | num a => exact valNum_noLine a its
    | id n =>
      refine andThen_noLine Pt.noLine _ _ _ _ _ (parsePoint_noLine _ (.tok (.id n) l :: its) (Nat.le_refl _)) (fun v its => ?_)
      exact done_noLine MetaVal.noLine (.pt v) its
    | _ => rfl
  · rfl
  · rfl

theorem parseArg_noLine (its : List (Item α)) :
    parseArg (its.map Item.noLine) = mapOut (pairOut Meta.noLine) (parseArg its) := by
  rcases its with _ | ⟨⟨t, l⟩ | _ | _, its⟩
  · rfl
  · cases t with
    | p c =>
      simp only [List.map_cons, Item.noLine, parseArg]
      split_ifs
      · refine expect_noLine _ _ _ _ (fun its => ?_) its
        refine andThen_noLine id _ _ _ _ _ (parseLocation_noLine its) (fun v its => ?_)
        exact done_noLine Meta.noLine ⟨['@'], .loc v, l⟩ its
      · rfl
    | id n =>
      refine expect_noLine _ _ _ _ (fun its => ?_) its
      refine andThen_noLine MetaVal.noLine _ _ _ _ _ (parseVal_noLine its) (fun v its => ?_)
      exact done_noLine Meta.noLine ⟨n, v, l⟩ its
    | _ => rfl
  · rfl
  · rfl

theorem startsArg_noLine (its : List (Item α)) : startsArg (its.map Item.noLine) = startsArg its := by
  rcases its with _ | ⟨⟨t, l⟩ | _ | _, its⟩
  · rfl
  · cases t <;> rfl
  · rfl
  · rfl

theorem parseArgs_noLine (fuel : Nat) : ∀ (acc : List (Meta α)) (its : List (Item α)),
    parseArgs fuel (acc.map Meta.noLine) (its.map Item.noLine) = mapOut (pairOut (List.map Meta.noLine)) (parseArgs fuel acc its) := by
  induction fuel with
  | zero => intro acc its; rfl
  | succ fuel ih =>
    intro acc its
    simp only [parseArgs, startsArg_noLine]
    split_ifs
    · refine andThen_noLine Meta.noLine _ _ _ _ _ (parseArg_noLine its) (fun m its => ?_)
      refine expect_noLine _ _ _ _ (fun its => ?_) its
      rw [← ih]; simp
    · rfl

theorem parseMore_noLine (fuel : Nat) : ∀ (acc : List (Meta α)) (its : List (Item α)),
    parseMore fuel (acc.map Meta.noLine) (its.map Item.noLine) = mapOut (pairOut (List.map Meta.noLine)) (parseMore fuel acc its) := by
  induction fuel with
  | zero => intro acc its; rfl
  | succ fuel ih =>
    intro acc its
    rcases its with _ | ⟨⟨t, l⟩ | _ | _, its⟩
    · rfl
    · cases t with
      | p c =>
        simp only [List.map_cons, Item.noLine, parseMore]
        split_ifs
        · refine andThen_noLine Meta.noLine _ _ _ _ _ (parseArg_noLine its) (fun m its => ?_)
          rw [← ih]; simp
        · rfl
      | _ => rfl
    · rfl
    · rfl

theorem parseDim_noLine (k : DimKind) (l : Nat) (its : List (Item α)) :
    parseDim k 0 (its.map Item.noLine) = mapOut (pairOut DimN.noLine) (parseDim k l its) := by
  refine expect_noLine _ _ _ _ (fun its => ?_) its
  rw [startsArg_noLine]
  split_ifs
  · refine andThen_noLine Meta.noLine _ _ _ _ _ (parseArg_noLine its) (fun m its => ?_)
    refine andThen_noLine (List.map Meta.noLine) _ _ _ _ _ ?_ (fun ms its => ?_)
    · rw [List.length_map]; exact parseMore_noLine _ [m] its
    · refine expect_noLine _ _ _ _ (fun its => ?_) its
      exact expect_noLine _ _ _ _ (fun its => done_noLine DimN.noLine ⟨k, ms, l⟩ its) its
  · refine expect_noLine _ _ _ _ (fun its => ?_) its
    exact expect_noLine _ _ _ _ (fun its => done_noLine DimN.noLine ⟨k, [], l⟩ its) its

def partsNoLine (r : List (Meta α) × List (DimN α)) : List (Meta α) × List (DimN α) := (r.1.map Meta.noLine, r.2.map DimN.noLine)
def pageNoLine (r : List (Meta α) × List (Drawable α)) : List (Meta α) × List (Drawable α) := (r.1.map Meta.noLine, r.2.map Drawable.noLine)

theorem parseDrawParts_noLine (fuel : Nat) : ∀ (ms : List (Meta α)) (ds : List (DimN α)) (its : List (Item α)),
    parseDrawParts fuel (ms.map Meta.noLine) (ds.map DimN.noLine) (its.map Item.noLine) =
      mapOut (pairOut partsNoLine) (parseDrawParts fuel ms ds its) := by
  induction fuel with
  | zero => intro ms ds its; rfl
  | succ fuel ih =>
    intro ms ds its
    simp only [parseDrawParts, startsArg_noLine]
    split_ifs
    · refine andThen_noLine Meta.noLine _ _ _ _ _ (parseArg_noLine its) (fun m its => ?_)
      refine expect_noLine _ _ _ _ (fun its => ?_) its
      rw [← ih]; simp
    · have dim : ∀ k l (its : List (Item α)), andThen (parseDim k 0 (its.map Item.noLine)) (fun d => parseDrawParts fuel (ms.map Meta.noLine) (ds.map DimN.noLine ++ [d])) =
          mapOut (pairOut partsNoLine) (andThen (parseDim k l its) (fun d => parseDrawParts fuel ms (ds ++ [d]))) := by
        intro k l its
        refine andThen_noLine DimN.noLine _ _ _ _ _ (parseDim_noLine k l its) (fun d its => ?_)
        rw [← ih]; simp
      rcases its with _ | ⟨⟨t, l⟩ | _ | _, its⟩
      · rfl
      · cases t with
        | kAngle => exact dim _ l its
        | kDia => exact dim _ l its
        | kDim => exact dim _ l its
        | kRad => exact dim _ l its
        | _ => rfl
      · rfl
      · rfl

theorem parseDraw_noLine (its : List (Item α)) :
    parseDraw (its.map Item.noLine) = mapOut (pairOut Drawable.noLine) (parseDraw its) := by
  refine ident_noLine _ _ _ (fun n l its => ?_) its
  refine expect_noLine _ _ _ _ (fun its => ?_) its
  refine andThen_noLine partsNoLine _ _ _ _ _ ?_ (fun r its => ?_)
  · rw [List.length_map]; exact parseDrawParts_noLine _ [] [] its
  · exact expect_noLine _ _ _ _ (fun its => done_noLine Drawable.noLine (.draw n r.1 r.2 l) its) its

theorem parseText_noLine (l : Nat) (its : List (Item α)) :
    parseText 0 (its.map Item.noLine) = mapOut (pairOut Drawable.noLine) (parseText l its) := by
  refine expect_noLine _ _ _ _ (fun its => ?_) its
  refine strLit_noLine _ _ _ (fun s its => ?_) its
  rw [parseStrs_noLine]
  refine expect_noLine _ _ _ _ (fun its' => ?_) _
  refine expect_noLine _ _ _ _ (fun its' => ?_) its'
  refine andThen_noLine (List.map Meta.noLine) _ _ _ _ _ ?_ (fun ms its' => ?_)
  · rw [List.length_map]; exact parseArgs_noLine _ [] its'
  · exact expect_noLine _ _ _ _ (fun its' => done_noLine Drawable.noLine (.text (parseStrs s its).1 ms l) its') its'

theorem parsePageParts_noLine (fuel : Nat) : ∀ (ms : List (Meta α)) (ds : List (Drawable α)) (its : List (Item α)),
    parsePageParts fuel (ms.map Meta.noLine) (ds.map Drawable.noLine) (its.map Item.noLine) =
      mapOut (pairOut pageNoLine) (parsePageParts fuel ms ds its) := by
  induction fuel with
  | zero => intro ms ds its; rfl
  | succ fuel ih =>
    intro ms ds its
    simp only [parsePageParts, startsArg_noLine]
    split_ifs
    · refine andThen_noLine Meta.noLine _ _ _ _ _ (parseArg_noLine its) (fun m its => ?_)
      refine expect_noLine _ _ _ _ (fun its => ?_) its
      rw [← ih]; simp
    · rcases its with _ | ⟨⟨t, l⟩ | _ | _, its⟩
      · rfl
      · cases t with
        | kDraw =>
          refine andThen_noLine Drawable.noLine _ _ _ _ _ (parseDraw_noLine its) (fun d its => ?_)
          rw [← ih]; simp
        | kText =>
          refine andThen_noLine Drawable.noLine _ _ _ _ _ (parseText_noLine l its) (fun d its => ?_)
          rw [← ih]; simp
        | _ => rfl
      · rfl
      · rfl

theorem parsePage_noLine (l : Nat) (its : List (Item α)) :
    parsePage 0 (its.map Item.noLine) = mapOut (pairOut PageN.noLine) (parsePage l its) := by
  refine expect_noLine _ _ _ _ (fun its => ?_) its
  refine andThen_noLine pageNoLine _ _ _ _ _ ?_ (fun r its => ?_)
  · rw [List.length_map]; exact parsePageParts_noLine _ [] [] its
  · exact expect_noLine _ _ _ _ (fun its => done_noLine PageN.noLine ⟨r.1, r.2, l⟩ its) its

theorem parseModel_noLine (l : Nat) (its : List (Item α)) :
    parseModel 0 (its.map Item.noLine) = mapOut (pairOut ModelN.noLine) (parseModel l its) := by
  refine ident_noLine _ _ _ (fun n _ its => ?_) its
  refine expect_noLine _ _ _ _ (fun its => ?_) its
  refine strLit_noLine _ _ _ (fun s its => ?_) its
  exact expect_noLine _ _ _ _ (fun its => done_noLine ModelN.noLine ⟨n, s, l⟩ its) its

theorem parseInput_noLine (fuel : Nat) : ∀ (ms : List ModelN) (ps : List (PageN α)) (its : List (Item α)),
    parseInput fuel (ms.map ModelN.noLine) (ps.map PageN.noLine) (its.map Item.noLine) = mapOut Doc.noLine (parseInput fuel ms ps its) := by
  induction fuel with
  | zero => intro ms ps its; rfl
  | succ fuel ih =>
    intro ms ps its
    rcases its with _ | ⟨⟨t, l⟩ | _ | _, its⟩
    · rfl
    · cases t with
      | kLoad =>
        refine andThen_noLine ModelN.noLine _ _ _ _ _ (parseModel_noLine l its) (fun d its => ?_)
        rw [← ih]; simp
      | kPage =>
        refine andThen_noLine PageN.noLine _ _ _ _ _ (parsePage_noLine l its) (fun d its => ?_)
        rw [← ih]; simp
      | _ => rfl
    · rfl
    · rfl

theorem parseItems_noLine (its : List (Item α)) : parseItems (its.map Item.noLine) = mapOut Doc.noLine (parseItems its) := by
  unfold parseItems
  rw [List.length_map]
  exact parseInput_noLine _ [] [] its

end S2P
