import Verif.Spec.Print
import Verif.Lemmas.Grammar
import Verif.Props.Lex

set_option linter.unusedSectionVars false
set_option linter.unusedVariables false
set_option linter.unusedSimpArgs false

namespace S2P
variable {α : Type} [FP α]

theorem keywords_fst (β γ : Type) : (keywords (α := β)).map (·.1) = (keywords (α := γ)).map (·.1) := rfl

theorem IsName.notKey (w : Str) (h : IsName w) : ∀ k ∈ keywords (α := α), w ≠ k.1 := by
  intro k hk he
  have : k.1 ∈ (keywords (α := Unit)).map (·.1) := by
    rw [keywords_fst Unit α]; exact List.mem_map.2 ⟨k, hk, rfl⟩
  obtain ⟨k', hk', h'⟩ := List.mem_map.1 this
  exact h.2 k' hk' (by rw [he, h'])

/-- the items of a list of texts, without lines -/
abbrev itemsOf (ws : List Str) : List (Item α) := ws.flatMap lexemeItems

theorem items_name (w : Str) (h : IsName w) : (lexemeItems w : List (Item α)) = [.tok (.id w) 0] :=
  lexemeItems_word w h.1 h.notKey

theorem items_num (x : α) (w : Str) (h : SpellNum x w) : (lexemeItems w : List (Item α)) = [.tok (.num x) 0] := by
  obtain ⟨h1, q, h2, h3⟩ := h
  have := lex_num (α := α) w h1 q h2 [] (by simp) 0
  rw [List.append_nil] at this
  unfold lexemeItems
  rw [this, h3]
  simp [lexFrom, Item.noLine]

variable (num : α → Str) (int : Int → Str)

theorem pt_items (p : Pt α) (h : p.Good num) : GPoint (itemsOf (p.print num)) p.noLine := by
  induction p with
  | val p l =>
    obtain ⟨h1, h2, h3⟩ := h
    simp only [itemsOf, Pt.print, List.flatMap_cons, List.flatMap_nil, lexemeItems_punct '[' (by decide), lexemeItems_punct ',' (by decide),
      lexemeItems_punct ']' (by decide), items_num _ _ h1, items_num _ _ h2, items_num _ _ h3]
    exact .val 0 0 0 0 0 0 0 _ _ _
  | func n p l ih =>
    obtain ⟨h1, h2⟩ := h
    simp only [itemsOf, Pt.print, List.flatMap_append, List.flatMap_cons, List.flatMap_nil, lexemeItems_punct '(' (by decide),
      lexemeItems_punct ')' (by decide), items_name n h1]
    exact .func n 0 0 0 _ _ (ih h2)

theorem meta_items (m : Meta α) (h : m.Good num int) : GArg (itemsOf (m.print num int)) m.noLine := by
  obtain ⟨n, v, l⟩ := m
  obtain ⟨h1, h2⟩ := h
  rcases h1 with h1 | ⟨h1, w, h3⟩
  · have hn : n ≠ ['@'] := by
      rintro rfl
      obtain ⟨c, t, he, hl, _⟩ := h1.1
      simp at he
      rw [← he.1] at hl
      revert hl; unfold Letter; decide
    have hn1 := items_name (α := α) n h1
    simp only [itemsOf, Meta.print, if_neg hn, List.flatMap_cons, lexemeItems_punct '=' (by decide), hn1]
    cases v with
    | str s =>
      simp only [MetaVal.print, List.flatMap_cons, List.flatMap_nil, lexemeItems_quote s h2]
      exact .str n 0 0 _ s (.one s 0)
    | pt p => exact .pt n 0 0 _ _ (pt_items num p h2)
    | num x =>
      simp only [MetaVal.print, List.flatMap_cons, List.flatMap_nil, items_num x _ h2]
      exact .num n 0 0 0 x
    | loc v =>
      simp only [MetaVal.print, List.flatMap_cons, List.flatMap_nil, items_num _ _ h2.1, items_num _ _ h2.2,
        lexemeItems_punct '[' (by decide), lexemeItems_punct ',' (by decide), lexemeItems_punct ']' (by decide)]
      exact .loc n 0 0 _ v (.mk 0 0 0 0 0 _ _)
    | scale i j =>
      obtain ⟨⟨x, hx, hi⟩, ⟨y, hy, hj⟩⟩ := h2
      simp only [MetaVal.print, List.flatMap_cons, List.flatMap_nil, items_num _ _ hx, items_num _ _ hy, lexemeItems_punct ':' (by decide)]
      exact .scale n 0 0 0 0 0 x y i j hi hj
  · have h1' : n = ['@'] := h1
    have h3' : v = .loc w := h3
    subst h1' h3'
    simp only [itemsOf, Meta.print, if_true, MetaVal.print, List.flatMap_cons, List.flatMap_nil, items_num _ _ h2.1, items_num _ _ h2.2,
        lexemeItems_punct '[' (by decide), lexemeItems_punct ',' (by decide), lexemeItems_punct ']' (by decide), lexemeItems_punct '@' (by decide)]
    exact .at 0 _ w (.mk 0 0 0 0 0 _ _)

theorem items_append (a b : List Str) : (itemsOf (a ++ b) : List (Item α)) = itemsOf a ++ itemsOf b := List.flatMap_append

theorem parts_items (ms : List (Meta α)) (h : ∀ m ∈ ms, m.Good num int) : GTextParts (itemsOf (printParts num int ms)) (ms.map Meta.noLine) := by
  induction ms using List.reverseRecOn with
  | nil => exact .empty
  | append_singleton ms m ih =>
    have h1 := ih (fun x hx => h x (by simp [hx]))
    have h2 := GTextParts.arg _ _ _ _ 0 h1 (meta_items num int m (h m (by simp)))
    simp only [printParts, List.flatMap_append, List.flatMap_cons, List.flatMap_nil, List.append_nil, List.map_append, List.map_cons, List.map_nil,
      itemsOf, lexemeItems_punct ';' (by decide), List.append_assoc] at h2 ⊢
    exact h2

theorem drawMetas_items (ms : List (Meta α)) (h : ∀ m ∈ ms, m.Good num int) : GDrawParts (itemsOf (printParts num int ms)) (ms.map Meta.noLine) [] := by
  induction ms using List.reverseRecOn with
  | nil => exact .empty
  | append_singleton ms m ih =>
    have h1 := ih (fun x hx => h x (by simp [hx]))
    have h2 := GDrawParts.arg _ _ _ _ _ 0 h1 (meta_items num int m (h m (by simp)))
    simp only [printParts, List.flatMap_append, List.flatMap_cons, List.flatMap_nil, List.append_nil, List.map_append, List.map_cons, List.map_nil,
      itemsOf, lexemeItems_punct ';' (by decide), List.append_assoc] at h2 ⊢
    exact h2

theorem pageMetas_items (ms : List (Meta α)) (h : ∀ m ∈ ms, m.Good num int) : GPageParts (itemsOf (printParts num int ms)) (ms.map Meta.noLine) [] := by
  induction ms using List.reverseRecOn with
  | nil => exact .empty
  | append_singleton ms m ih =>
    have h1 := ih (fun x hx => h x (by simp [hx]))
    have h2 := GPageParts.arg _ _ _ _ _ 0 h1 (meta_items num int m (h m (by simp)))
    simp only [printParts, List.flatMap_append, List.flatMap_cons, List.flatMap_nil, List.append_nil, List.map_append, List.map_cons, List.map_nil,
      itemsOf, lexemeItems_punct ';' (by decide), List.append_assoc] at h2 ⊢
    exact h2

theorem args_items (m : Meta α) (ms : List (Meta α)) (h : ∀ x ∈ m :: ms, x.Good num int) :
    GDimParts (itemsOf (printArgs num int (m :: ms))) ((m :: ms).map Meta.noLine) := by
  induction ms using List.reverseRecOn with
  | nil =>
    have := GDimParts.one _ _ (meta_items num int m (h m (by simp)))
    simpa [printArgs] using this
  | append_singleton ms x ih =>
    have h1 := ih (fun y hy => h y (by
      rcases List.mem_cons.1 hy with rfl | hy
      · simp
      · simp [hy]))
    have h2 := GDimParts.more _ _ _ _ 0 h1 (meta_items num int x (h x (by simp)))
    simp only [printArgs, List.flatMap_append, List.flatMap_cons, List.flatMap_nil, List.append_nil, List.map_append, List.map_cons, List.map_nil,
      itemsOf, lexemeItems_punct ',' (by decide), List.append_assoc, List.cons_append, List.nil_append] at h2 ⊢
    exact h2

theorem dimKey_items (k : DimKind) : ∃ t : Tok α, DimKey t k ∧ (lexemeItems k.print : List (Item α)) = [.tok t 0] := by
  cases k
  · exact ⟨_, .angle, lexemeItems_key (c!"angle", .kAngle) (by simp [keywords])⟩
  · exact ⟨_, .dia, lexemeItems_key (c!"dia", .kDia) (by simp [keywords])⟩
  · exact ⟨_, .dim, lexemeItems_key (c!"dim", .kDim) (by simp [keywords])⟩
  · exact ⟨_, .rad, lexemeItems_key (c!"rad", .kRad) (by simp [keywords])⟩

theorem drawParts_items (ms : List (Meta α)) (ds : List (DimN α)) (h : ∀ m ∈ ms, m.Good num int) (hd : ∀ d ∈ ds, d.Good num int) :
    GDrawParts (itemsOf (printParts num int ms ++ ds.flatMap (DimN.print num int))) (ms.map Meta.noLine) (ds.map DimN.noLine) := by
  induction ds using List.reverseRecOn with
  | nil => simpa using drawMetas_items num int ms h
  | append_singleton ds d ih =>
    have h1 := ih (fun y hy => hd y (by simp [hy]))
    obtain ⟨t, hk, ht⟩ := dimKey_items (α := α) d.kind
    have hgood := hd d (by simp)
    obtain ⟨k, args, l⟩ := d
    cases args with
    | nil =>
      have h2 := GDrawParts.dim0 _ _ _ t k 0 0 0 0 h1 hk
      simp only [itemsOf, printArgs, DimN.print, List.flatMap_append, List.flatMap_cons, List.flatMap_nil, List.append_nil, List.map_append, List.map_cons, List.map_nil,
        lexemeItems_punct ';' (by decide), lexemeItems_punct '(' (by decide), lexemeItems_punct ')' (by decide), ht, List.append_assoc, List.cons_append, List.nil_append] at h2 ⊢
      exact h2
    | cons a args =>
      have ha := args_items num int a args hgood
      have h2 := GDrawParts.dim _ _ _ _ _ t k 0 0 0 0 h1 hk ha
      simp only [itemsOf, DimN.print, List.flatMap_append, List.flatMap_cons, List.flatMap_nil, List.append_nil, List.map_append, List.map_cons, List.map_nil,
        lexemeItems_punct ';' (by decide), lexemeItems_punct '(' (by decide), lexemeItems_punct ')' (by decide), ht, List.append_assoc, List.cons_append, List.nil_append] at h2 ⊢
      exact h2

theorem pageParts_items (ms : List (Meta α)) (ds : List (Drawable α)) (h : ∀ m ∈ ms, m.Good num int) (hd : ∀ d ∈ ds, d.Good num int) :
    GPageParts (itemsOf (printParts num int ms ++ ds.flatMap (Drawable.print num int))) (ms.map Meta.noLine) (ds.map Drawable.noLine) := by
  induction ds using List.reverseRecOn with
  | nil => simpa using pageMetas_items num int ms h
  | append_singleton ds d ih =>
    have h1 := ih (fun y hy => hd y (by simp [hy]))
    have hgood := hd d (by simp)
    cases d with
    | draw n ms' dims l =>
      have h2 := GPageParts.draw _ _ _ _ _ _ n 0 0 0 0 h1 (drawParts_items num int ms' dims hgood.2.1 hgood.2.2)
      have hk := lexemeItems_key (α := α) (c!"draw", .kDraw) (by simp [keywords])
      simp only [itemsOf, Drawable.print, List.flatMap_append, List.flatMap_cons, List.flatMap_nil, List.append_nil, List.map_append, List.map_cons, List.map_nil,
        lexemeItems_punct '{' (by decide), lexemeItems_punct '}' (by decide), items_name n hgood.1, hk, List.append_assoc, List.cons_append, List.nil_append] at h2 ⊢
      exact h2
    | text s ms' l =>
      have h2 := GPageParts.text _ _ _ _ _ _ s 0 0 0 0 0 h1 (.one s 0) (parts_items num int ms' hgood.2)
      have hk := lexemeItems_key (α := α) (c!"text", .kText) (by simp [keywords])
      simp only [itemsOf, Drawable.print, List.flatMap_append, List.flatMap_cons, List.flatMap_nil, List.append_nil, List.map_append, List.map_cons, List.map_nil,
        lexemeItems_punct '{' (by decide), lexemeItems_punct '}' (by decide), lexemeItems_punct '[' (by decide), lexemeItems_punct ']' (by decide),
        lexemeItems_quote s hgood.1, hk, List.append_assoc, List.cons_append, List.nil_append] at h2 ⊢
      exact h2

theorem page_items (p : PageN α) (h : p.Good num int) : GPage (itemsOf (p.print num int)) p.noLine := by
  have h2 := GPage.mk 0 0 0 _ _ _ (pageParts_items num int p.metas p.draws h.1 h.2)
  have hk := lexemeItems_key (α := α) (c!"page", .kPage) (by simp [keywords])
  simp only [itemsOf, PageN.print, List.flatMap_append, List.flatMap_cons, List.flatMap_nil, List.append_nil,
    lexemeItems_punct '{' (by decide), lexemeItems_punct '}' (by decide), hk, List.append_assoc, List.cons_append, List.nil_append] at h2 ⊢
  exact h2

theorem model_items (m : ModelN) (h : m.Good) : GModel (α := α) (itemsOf m.print) m.noLine := by
  have h2 := GModel.mk (α := α) m.name m.source 0 0 0 0 0
  have hk := lexemeItems_key (α := α) (c!"load", .kLoad) (by simp [keywords])
  simp only [itemsOf, ModelN.print, List.flatMap_append, List.flatMap_cons, List.flatMap_nil, List.append_nil,
    lexemeItems_punct '=' (by decide), lexemeItems_punct ';' (by decide), items_name _ h.1, lexemeItems_quote _ h.2, hk, List.append_assoc, List.cons_append, List.nil_append] at h2 ⊢
  exact h2

theorem doc_items (d : Doc α) (h : d.Good num int) : GInput (itemsOf (d.print num int)) d.noLine := by
  obtain ⟨ms, ps⟩ := d
  obtain ⟨hm, hp⟩ := h
  have h1 : GInput (α := α) (itemsOf (ms.flatMap ModelN.print)) ⟨ms.map ModelN.noLine, []⟩ := by
    have hm' : ∀ m ∈ ms, m.Good := hm
    clear hm hp
    induction ms using List.reverseRecOn with
    | nil => exact .empty
    | append_singleton ms m ih =>
      have h1 := ih (fun y hy => hm' y (by simp [hy]))
      have h2 := GInput.model _ _ _ _ _ h1 (model_items m (hm' m (by simp)))
      simpa [itemsOf] using h2
  show GInput (itemsOf (ms.flatMap ModelN.print ++ ps.flatMap (PageN.print num int))) ⟨ms.map ModelN.noLine, ps.map PageN.noLine⟩
  have hp' : ∀ p ∈ ps, p.Good num int := hp
  clear hm hp
  induction ps using List.reverseRecOn with
  | nil => simpa using h1
  | append_singleton ps p ih =>
    have h3 := ih (fun y hy => hp' y (by simp [hy]))
    have h2 := GInput.page _ _ _ _ _ h3 (page_items num int p (hp' p (by simp)))
    simpa [itemsOf] using h2

/-! ## All printed texts are tokens -/

theorem tok_punct (c : Char) (hc : c ∈ puncts) : IsToken [c] := Or.inl ⟨c, hc, rfl⟩
theorem tok_name (w : Str) (h : IsName w) : IsToken w := Or.inr (Or.inl h.1)
theorem tok_num (x : α) (w : Str) (h : SpellNum x w) : IsToken w := by
  rcases h.1 with h | h
  · exact Or.inr (Or.inr (Or.inl h))
  · exact Or.inr (Or.inr (Or.inr (Or.inl h)))
theorem tok_quote (s : Str) : IsToken (quote s) := Or.inr (Or.inr (Or.inr (Or.inr (isLiteral_quote s))))
theorem tok_key (k : Str × Tok (Ext ℚ)) (hk : k ∈ keywords) : IsToken k.1 := Or.inr (Or.inl (keyword_isWord k hk))

theorem pt_tokens (p : Pt α) (h : p.Good num) : ∀ w ∈ p.print num, IsToken w := by
  induction p with
  | val p l =>
    obtain ⟨h1, h2, h3⟩ := h
    intro w hw
    simp only [Pt.print, List.mem_cons, List.not_mem_nil, or_false] at hw
    rcases hw with rfl | rfl | rfl | rfl | rfl | rfl | rfl
    · exact tok_punct _ (by decide)
    · exact tok_num _ _ h1
    · exact tok_punct _ (by decide)
    · exact tok_num _ _ h2
    · exact tok_punct _ (by decide)
    · exact tok_num _ _ h3
    · exact tok_punct _ (by decide)
  | func n p l ih =>
    obtain ⟨h1, h2⟩ := h
    intro w hw
    simp only [Pt.print, List.mem_append, List.mem_cons, List.not_mem_nil, or_false] at hw
    rcases hw with ((rfl | rfl) | hw) | rfl
    · exact tok_name _ h1
    · exact tok_punct _ (by decide)
    · exact ih h2 w hw
    · exact tok_punct _ (by decide)

theorem val_tokens (v : MetaVal α) (h : v.Good num int) : ∀ w ∈ v.print num int, IsToken w := by
  cases v with
  | str s => intro w hw; simp only [MetaVal.print, List.mem_cons, List.not_mem_nil, or_false] at hw; subst hw; exact tok_quote s
  | pt p => exact pt_tokens num p h
  | num x => intro w hw; simp only [MetaVal.print, List.mem_cons, List.not_mem_nil, or_false] at hw; subst hw; exact tok_num _ _ h
  | loc v =>
    intro w hw
    simp only [MetaVal.print, List.mem_cons, List.not_mem_nil, or_false] at hw
    rcases hw with rfl | rfl | rfl | rfl | rfl
    · exact tok_punct _ (by decide)
    · exact tok_num _ _ h.1
    · exact tok_punct _ (by decide)
    · exact tok_num _ _ h.2
    · exact tok_punct _ (by decide)
  | scale i j =>
    obtain ⟨⟨x, hx, hi⟩, ⟨y, hy, hj⟩⟩ := h
    intro w hw
    simp only [MetaVal.print, List.mem_cons, List.not_mem_nil, or_false] at hw
    rcases hw with rfl | rfl | rfl
    · exact tok_num _ _ hx
    · exact tok_punct _ (by decide)
    · exact tok_num _ _ hy

theorem meta_tokens (m : Meta α) (h : m.Good num int) : ∀ w ∈ m.print num int, IsToken w := by
  intro w hw
  unfold Meta.print at hw
  split_ifs at hw with hn
  · rcases List.mem_cons.1 hw with rfl | hw
    · exact tok_punct _ (by decide)
    · exact val_tokens num int _ h.2 w hw
  · have hn1 : IsName m.name := by
      rcases h.1 with h | h
      · exact h
      · exact absurd h.1 hn
    rcases List.mem_cons.1 hw with rfl | hw
    · exact tok_name _ hn1
    · rcases List.mem_cons.1 hw with rfl | hw
      · exact tok_punct _ (by decide)
      · exact val_tokens num int _ h.2 w hw

theorem parts_tokens (ms : List (Meta α)) (h : ∀ m ∈ ms, m.Good num int) : ∀ w ∈ printParts num int ms, IsToken w := by
  intro w hw
  obtain ⟨m, hm, hw⟩ := List.mem_flatMap.1 hw
  rcases List.mem_append.1 hw with hw | hw
  · exact meta_tokens num int m (h m hm) w hw
  · simp at hw; subst hw; exact tok_punct _ (by decide)

theorem dim_tokens (d : DimN α) (h : d.Good num int) : ∀ w ∈ d.print num int, IsToken w := by
  intro w hw
  simp only [DimN.print, List.mem_append, List.mem_cons, List.not_mem_nil, or_false] at hw
  rcases hw with ((rfl | rfl) | hw) | rfl | rfl
  · cases d.kind
    · exact tok_key (c!"angle", .kAngle) (by simp [keywords])
    · exact tok_key (c!"dia", .kDia) (by simp [keywords])
    · exact tok_key (c!"dim", .kDim) (by simp [keywords])
    · exact tok_key (c!"rad", .kRad) (by simp [keywords])
  · exact tok_punct _ (by decide)
  · obtain ⟨k, args, l⟩ := d
    have h' : ∀ m ∈ args, m.Good num int := h
    cases args with
    | nil => simp [printArgs] at hw
    | cons a args =>
      rcases List.mem_append.1 hw with hw | hw
      · exact meta_tokens num int a (h' a (by simp)) w hw
      · obtain ⟨m, hm, hw⟩ := List.mem_flatMap.1 hw
        rcases List.mem_cons.1 hw with rfl | hw
        · exact tok_punct _ (by decide)
        · exact meta_tokens num int m (h' m (by simp [hm])) w hw
  · exact tok_punct _ (by decide)
  · exact tok_punct _ (by decide)

theorem drawable_tokens (d : Drawable α) (h : d.Good num int) : ∀ w ∈ d.print num int, IsToken w := by
  intro w hw
  cases d with
  | draw n ms ds l =>
    simp only [Drawable.print, List.mem_append, List.mem_cons, List.not_mem_nil, or_false] at hw
    rcases hw with (((rfl | rfl | rfl) | hw) | hw) | rfl
    · exact tok_key (c!"draw", .kDraw) (by simp [keywords])
    · exact tok_name _ h.1
    · exact tok_punct _ (by decide)
    · exact parts_tokens num int ms h.2.1 w hw
    · obtain ⟨d, hd, hw⟩ := List.mem_flatMap.1 hw
      exact dim_tokens num int d (h.2.2 d hd) w hw
    · exact tok_punct _ (by decide)
  | text s ms l =>
    simp only [Drawable.print, List.mem_append, List.mem_cons, List.not_mem_nil, or_false] at hw
    rcases hw with ((rfl | rfl | rfl | rfl | rfl) | hw) | rfl
    · exact tok_key (c!"text", .kText) (by simp [keywords])
    · exact tok_punct _ (by decide)
    · exact tok_quote s
    · exact tok_punct _ (by decide)
    · exact tok_punct _ (by decide)
    · exact parts_tokens num int ms h.2 w hw
    · exact tok_punct _ (by decide)

theorem doc_tokens (d : Doc α) (h : d.Good num int) : ∀ w ∈ d.print num int, IsToken w := by
  intro w hw
  rcases List.mem_append.1 hw with hw | hw
  · obtain ⟨m, hm, hw⟩ := List.mem_flatMap.1 hw
    have hg := h.1 m hm
    simp only [ModelN.print, List.mem_cons, List.not_mem_nil, or_false] at hw
    rcases hw with rfl | rfl | rfl | rfl | rfl
    · exact tok_key (c!"load", .kLoad) (by simp [keywords])
    · exact tok_name _ hg.1
    · exact tok_punct _ (by decide)
    · exact tok_quote _
    · exact tok_punct _ (by decide)
  · obtain ⟨p, hp, hw⟩ := List.mem_flatMap.1 hw
    have hg := h.2 p hp
    simp only [PageN.print, List.mem_append, List.mem_cons, List.not_mem_nil, or_false] at hw
    rcases hw with (((rfl | rfl) | hw) | hw) | rfl
    · exact tok_key (c!"page", .kPage) (by simp [keywords])
    · exact tok_punct _ (by decide)
    · exact parts_tokens num int _ hg.1 w hw
    · obtain ⟨d, hd, hw⟩ := List.mem_flatMap.1 hw
      exact drawable_tokens num int d (hg.2 d hd) w hw
    · exact tok_punct _ (by decide)

/-- one space after every token -/
def spaced (ws : List Str) : Str := ws.flatMap (· ++ [' '])

theorem layout_spaced (ws : List Str) (h : ∀ w ∈ ws, IsToken w) : Layout ws (spaced ws) := by
  induction ws with
  | nil => exact .done _ (Or.inl .nil)
  | cons w ws ih =>
    have hw := h w (by simp)
    have h1 := layout_blanks ws (spaced ws) [' '] (.ws ' ' (by simp) [] .nil) (ih (fun x hx => h x (by simp [hx])))
    have := Layout.step [] w ([' '] ++ spaced ws) ws .nil (Or.inl hw)
      (noGlue_token w _ hw (by intro c hc; simp at hc; subst hc; unfold Letter Digit; decide)) h1
    simpa [spaced] using this

end S2P
