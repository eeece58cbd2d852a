import Verif.Proofs.Spreak.Order
/-!
# What a successful creation of a bundle says about the loaders
-/
namespace Verif.Proofs.Spreak
open Verif.Go Verif.Model.Spreak

variable {L N V : Type} [DecidableEq L]

theorem good_weaken {optional : Bool} {t : L} {p : Bytes × Loader L N} (h : Good optional t p) : Good true t p := by
  rcases h with h | ⟨_, h⟩
  · exact .inl h
  · exact .inr ⟨rfl, h⟩

/-- A step that does not stop the creation had no failing loader, if none said that the language is missing. -/
theorem created_good {w : World L N V} {optional : Bool} {b : Builder L N} {t : L} (h : Inv w b) (hno : ∀ p ∈ b.loaders, ∀ l, p.2 t p.1 ≠ .error (.missingLanguage l))
    {r : Builder L N × Except (Err L) Unit} (hc : Created w optional b t r) (hu : t ≠ w.und) (hs : t ≠ b.sourceLanguage)
    (hr : r.2 = .ok () ∨ ∃ l, r.2 = .error (.missingLanguage l)) : ∀ p ∈ b.loaders, Good true t p := by
  cases hc with
  | und h1 => exact absurd h1 hu
  | source _ _ h2 => exact absurd h2 hs
  | cached _ _ h3 =>
    cases hg : b.locales.get? t with
    | none => rw [hg] at h3; cases h3
    | some loc =>
      refine h.good t loc hg ?_
      cases he : loc.isSource with
      | false => rfl
      | true => exact absurd ((h.src t loc hg).1 he) hs
  | bad _ _ _ e _ _ _ _ _ h6 _ =>
    rcases hr with hr | ⟨l, hr⟩
    · cases hr
    · cases hr
      obtain ⟨p, hp, he⟩ := h6
      exact absurd he (hno p hp l)
  | empty _ _ _ _ _ _ _ hg => exact fun p hp => good_weaken (hg p hp)
  | new _ _ _ _ _ _ _ _ hg => exact fun p hp => good_weaken (hg p hp)

theorem preload_good (w : World L N V) {order : Order L N} (ho : Perms order) (optional : Bool) (as : List (LangArg L)) :
    ∀ {b b' : Builder L N}, Inv w b → b.preload w order optional as = (b', .ok ()) →
      ∀ a ∈ as, ∀ t, a.toTag w = .ok t → t ≠ w.und → t ≠ b.sourceLanguage →
        (∀ p ∈ b.loaders, ∀ l, p.2 t p.1 ≠ .error (.missingLanguage l)) → ∀ p ∈ b.loaders, Good true t p := by
  induction as with
  | nil => intro b b' _ _ a ha; cases ha
  | cons a as ih =>
    intro b b' h hr x hx t hxt hu hsrc hno
    rw [Builder.preload] at hr
    cases ht : a.toTag w with
    | error e => rw [ht] at hr; cases hr
    | ok tag =>
      rw [ht] at hr
      simp only at hr
      have hcr := createLocale_spec w ho optional b h.wf tag
      obtain ⟨hs, hi, _⟩ := created_inv h hcr
      have hgood : (b.createLocale w order optional tag).2 = .ok () ∨
          (∃ l, (b.createLocale w order optional tag).2 = .error (.missingLanguage l)) →
          x = a → ∀ p ∈ b.loaders, Good true t p := by
        rintro hr rfl
        rw [ht] at hxt
        cases hxt
        exact created_good h hno hcr hu hsrc hr
      generalize b.createLocale w order optional tag = r at hr hs hi hgood
      obtain ⟨b1, r1⟩ := r
      cases r1 with
      | ok u =>
        simp only at hr
        rcases List.mem_cons.mp hx with hx | hx
        · exact hgood (.inl rfl) hx
        · rw [← hs.loaders]
          exact ih hi hr x hx t hxt hu (by rw [hs.source]; exact hsrc) (by rw [hs.loaders]; exact hno)
      | error e =>
        simp only at hr
        cases hop : optional with
        | false => rw [hop] at hr; cases hr
        | true =>
          rw [hop] at hr
          cases e with
          | missingLanguage l =>
            simp only [Bool.not_true, Bool.false_eq_true, if_false] at hr
            rcases List.mem_cons.mp hx with hx | hx
            · exact hgood (.inr ⟨l, rfl⟩) hx
            · obtain ⟨hm, hms⟩ := missing_inv hi (.missingLanguage l)
              rw [← hop] at hr
              have hl := hms.loaders.trans hs.loaders
              have hso := hms.source.trans hs.source
              rw [← hl]
              exact ih hm hr x hx t hxt hu (by rw [hso]; exact hsrc) (by rw [hl]; exact hno)
          | _ => cases hr

/-- After all actions: no loader failed for a language that was asked for, if none said that the language is missing. -/
theorem runActions_good (w : World L N V) {order : Order L N} (ho : Perms order) (as : List (Action L)) :
    ∀ {b b' : Builder L N}, Inv w b → b.runActions w order as = .ok b' →
      ∀ a ∈ as, ∀ x ∈ a.languages, ∀ t, x.toTag w = .ok t → t ≠ w.und → t ≠ b.sourceLanguage →
        (∀ p ∈ b.loaders, ∀ l, p.2 t p.1 ≠ .error (.missingLanguage l)) → ∀ p ∈ b.loaders, Good true t p := by
  induction as with
  | nil => intro b b' _ _ a ha; cases ha
  | cons a as ih =>
    intro b b' h hr c hc x hx t hxt hu hsrc hno
    rw [Builder.runActions] at hr
    cases hp : b.preload w order a.optional a.languages with
    | mk b1 r1 =>
      rw [hp] at hr
      cases r1 with
      | error e => cases hr
      | ok u =>
        simp only at hr
        obtain ⟨hs, hi⟩ := preload_inv w ho a.optional a.languages h hp
        rcases List.mem_cons.mp hc with rfl | hc
        · exact preload_good w ho _ _ h hp x hx t hxt hu hsrc hno
        · rw [← hs.loaders]
          exact ih hi hr c hc x hx t hxt hu (by rw [hs.source]; exact hsrc) (by rw [hs.loaders]; exact hno)

end Verif.Proofs.Spreak
