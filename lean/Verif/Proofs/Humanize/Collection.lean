import Verif.Model.Humanize.Collection
import Verif.Proofs.Spreak.Bundle
/-! # What `New` of the humanize package creates -/
namespace Verif.Proofs.Humanize
open Verif.Go Verif.Model.Humanize Verif.Model.Spreak Verif.Proofs.Spreak

variable {L N V : Type} [DecidableEq L]

/-- One loader, no callback, a source language. -/
structure Single (d : Bytes) (ld : Loader L N) (en : L) (b : Builder L N) : Prop where
  loaders : b.loaders = [(d, ld)]
  callback : b.callback = false
  source : b.sourceLanguage = en
  locale : b.locales.get? en = some ⟨en, [], true⟩

/-- What a language adds to the bundle. -/
def adds (w : World L N V) (d : Bytes) (ld : Loader L N) (en l : L) : Option (Option (Catalog L N)) :=
  if l = w.und ∨ l = en then none
  else match ld l d with
    | .ok c => some c
    | .error _ => none

/-- A failure that is not a missing file. -/
def Fails (w : World L N V) (d : Bytes) (ld : Loader L N) (en l : L) : Prop :=
  l ≠ w.und ∧ l ≠ en ∧ ∃ e, ld l d = .error e ∧ e ≠ .notFound

theorem order_single {order : Order L N} (ho : Perms order) (k : Nat) (p : Bytes × Loader L N) : order k [p] = [p] :=
  List.perm_singleton.mp (ho k [p])

theorem preload_single (w : World L N V) {order : Order L N} (ho : Perms order) (d : Bytes) (ld : Loader L N) (en : L)
    (hen : en ≠ w.und) (hml : ∀ l e, ld l d = .error e → ∀ l', e ≠ .missingLanguage l') (ls : List L) :
    ∀ b : Builder L N, Single d ld en b → ls.Nodup → (∀ l ∈ ls, l ≠ en → b.locales.get? l = none) →
      (∃ b' : Builder L N, b.preload w order true (ls.map .tag) = (b', .ok ()) ∧ (∀ l ∈ ls, ¬ Fails w d ld en l) ∧
        Single d ld en b' ∧ b'.defaultDomain = b.defaultDomain ∧ b'.fallbackLanguage = b.fallbackLanguage ∧
        b'.languages = b.languages ++ ls.filter (fun l => decide (l = en) || (adds w d ld en l).isSome) ∧
        ∀ x, b'.locales.get? x = match (if x ∈ ls then adds w d ld en x else none) with
          | some c => some ⟨x, [(d, c)], false⟩
          | none => b.locales.get? x) ∨
      ((∃ b' : Builder L N, ∃ e, b.preload w order true (ls.map .tag) = (b', .error e)) ∧ ∃ l ∈ ls, Fails w d ld en l) := by
  induction ls with
  | nil =>
    intro b hb _ _
    refine Or.inl ⟨b, rfl, fun l hl => absurd hl (List.not_mem_nil), hb, rfl, rfl, (List.append_nil _).symm, fun x => ?_⟩
    rw [if_neg List.not_mem_nil]
  | cons l ls ih =>
    intro b hb hnd hno
    have hnd' := List.nodup_cons.mp hnd
    obtain ⟨h1, h2, h3, h4⟩ := hb
    -- continuing with a builder `c`
    have go : ∀ c : Builder L N, Single d ld en c → c.defaultDomain = b.defaultDomain → c.fallbackLanguage = b.fallbackLanguage →
        c.languages = b.languages ++ [l].filter (fun l => decide (l = en) || (adds w d ld en l).isSome) →
        (∀ x, c.locales.get? x = match (if x = l then adds w d ld en x else none) with
          | some c => some ⟨x, [(d, c)], false⟩
          | none => b.locales.get? x) →
        b.preload w order true ((l :: ls).map .tag) = c.preload w order true (ls.map .tag) →
        ¬ Fails w d ld en l →
        (∃ b' : Builder L N, b.preload w order true ((l :: ls).map .tag) = (b', .ok ()) ∧ (∀ l' ∈ l :: ls, ¬ Fails w d ld en l') ∧
          Single d ld en b' ∧ b'.defaultDomain = b.defaultDomain ∧ b'.fallbackLanguage = b.fallbackLanguage ∧
          b'.languages = b.languages ++ (l :: ls).filter (fun l => decide (l = en) || (adds w d ld en l).isSome) ∧
          ∀ x, b'.locales.get? x = match (if x ∈ l :: ls then adds w d ld en x else none) with
            | some c => some ⟨x, [(d, c)], false⟩
            | none => b.locales.get? x) ∨
        ((∃ b' : Builder L N, ∃ e, b.preload w order true ((l :: ls).map .tag) = (b', .error e)) ∧
          ∃ l' ∈ l :: ls, Fails w d ld en l') := by
      intro c hc g1 g2 g3 g4 g5 g6
      have hc0 : ∀ l' ∈ ls, l' ≠ en → c.locales.get? l' = none := by
        intro l' hl' hne
        rw [g4, if_neg (by rintro rfl; exact hnd'.1 hl')]
        exact hno l' (List.mem_cons_of_mem _ hl') hne
      rcases ih c hc hnd'.2 hc0 with ⟨b', r1, r2, r3, r4, r5, r6, r7⟩ | ⟨⟨b', e, r1⟩, l', hl', r2⟩
      · refine Or.inl ⟨b', by rw [g5, r1], ?_, r3, r4.trans g1, r5.trans g2, ?_, fun x => ?_⟩
        · intro l' hl'
          rcases List.mem_cons.mp hl' with rfl | h
          · exact g6
          · exact r2 _ h
        · rw [r6, g3, List.append_assoc, ← List.filter_append]
          rfl
        · rw [r7, g4]
          by_cases hx : x = l
          · subst hx
            rw [if_neg hnd'.1, if_pos rfl, if_pos List.mem_cons_self]
          · rw [if_neg hx]
            by_cases hx' : x ∈ ls
            · rw [if_pos hx', if_pos (List.mem_cons_of_mem _ hx')]
            · rw [if_neg hx', if_neg (by simp [hx, hx'])]
      · exact Or.inr ⟨⟨b', e, by rw [g5, r1]⟩, l', List.mem_cons_of_mem _ hl', r2⟩
    by_cases hu : l = w.und
    · refine go (b.missing (.missingLanguage l)) ?_ ?_ ?_ ?_ ?_ ?_ (fun hf => hf.1 hu)
      · rw [Builder.missing, h2, if_neg (by decide)]; exact ⟨h1, h2, h3, h4⟩
      · rw [Builder.missing, h2, if_neg (by decide)]
      · rw [Builder.missing, h2, if_neg (by decide)]
      · rw [Builder.missing, h2, if_neg (by decide)]
        have hne : l ≠ en := fun h => hen (h.symm.trans hu)
        simp [adds, hu, Ne.symm hen]
      · rw [Builder.missing, h2, if_neg (by decide)]
        intro x
        by_cases hx : x = l
        · simp [adds, hx, hu]
        · rw [if_neg hx]
      · simp only [List.map_cons, Builder.preload, LangArg.toTag, Builder.createLocale, if_pos hu, Bool.not_true]
        simp
    · by_cases he : l = en
      · refine go { b with
            locales := b.locales.set l ⟨b.sourceLanguage, [], true⟩
            languages := b.languages ++ [l]
            events := b.events ++ [.getPrintFunc b.sourceLanguage] } ?_ rfl rfl ?_ ?_ ?_ (fun hf => hf.2.1 he)
        · refine ⟨h1, h2, h3, ?_⟩
          simp only [GoMap.get?_set, he, h3, if_true]
        · simp [he]
        · intro x
          simp only [GoMap.get?_set]
          by_cases hx : x = l
          · subst hx
            simp [adds, he, h3, h4]
          · simp [hx, Ne.symm hx]
        · simp only [List.map_cons, Builder.preload, LangArg.toTag, Builder.createLocale, if_neg hu, h3, if_pos he]
      · have hnone := hno l List.mem_cons_self he
        cases hld : ld l d with
        | ok c =>
          refine go { b with
              loops := b.loops + 1
              domains := if d ∈ b.domains then b.domains else b.domains ++ [d]
              locales := b.locales.set l ⟨l, [(d, c)], false⟩
              languages := b.languages ++ [l]
              events := b.events ++ [.getPrintFunc l] } ⟨h1, h2, h3, ?_⟩ rfl rfl ?_ ?_ ?_ ?_
          · simp only [GoMap.get?_set, if_neg he]
            exact h4
          · simp [adds, hu, he, hld]
          · intro x
            simp only [GoMap.get?_set]
            by_cases hx : x = l
            · subst hx
              simp [adds, hu, he, hld]
            · simp [hx, Ne.symm hx]
          · simp only [List.map_cons, Builder.preload, LangArg.toTag, Builder.createLocale, if_neg hu, h3, if_neg he, hnone,
              Option.isSome_none, Bool.false_eq_true, if_false, h1, order_single ho, Builder.loadAll, hld, GoMap.set]
            by_cases hd : d ∈ b.domains
            · simp [hd]
            · simp [hd]
          · rintro ⟨_, _, e, h, _⟩
            rw [hld] at h
            cases h
        | error e =>
          by_cases hnf : e = .notFound
          · subst hnf
            refine go { b with loops := b.loops + 1 } ⟨h1, h2, h3, h4⟩ rfl rfl ?_ ?_ ?_ ?_
            · simp [adds, hu, he, hld]
            · intro x
              by_cases hx : x = l
              · subst hx
                simp [adds, hu, he, hld]
              · simp [hx]
            · simp only [List.map_cons, Builder.preload, LangArg.toTag, Builder.createLocale, if_neg hu, h3, if_neg he, hnone,
                Option.isSome_none, Bool.false_eq_true, if_false, h1, order_single ho, Builder.loadAll, hld, Builder.missing, h2]
              simp
            · rintro ⟨_, _, e, h, h'⟩
              rw [hld] at h
              injection h with h
              exact h' h.symm
          · refine Or.inr ⟨⟨{ b with loops := b.loops + 1 }, e, ?_⟩, l, List.mem_cons_self, hu, he, e, hld, hnf⟩
            have hm := hml l e hld
            simp only [List.map_cons, Builder.preload, LangArg.toTag, Builder.createLocale, if_neg hu, h3, if_neg he, hnone,
                Option.isSome_none, Bool.false_eq_true, if_false, h1, order_single ho, Builder.loadAll, hld]
            cases e with
            | notFound => exact absurd rfl hnf
            | missingLanguage l' => exact absurd rfl (hm l')
            | _ => simp
end Verif.Proofs.Humanize
