import Verif.Proofs.Po.Tidy
import Verif.Proofs.Po.EncodeRound
import Verif.Proofs.Po.EncodeSame
/-! Helper lemmas for writing PO files: the messages of a file that was written are sorted already. -/
namespace Verif.Proofs.Po
open Verif.Go Verif.Model.PoString Verif.Spec.PoFile Verif.Spec.PoSort Verif.Spec.PoEntry
open Verif.Model.Po hiding Field

theorem sort_again {sort sort' : Sorter} (hs : Sorts sort) (hs' : Sorts sort') {ms ms' l : List Message} (hk : (ms'.map keyOf).Nodup)
    (hn : Normalises defaultSort tidy ms) (ho : StrictOn defaultSort (ms.map tidy)) (hp : l.Perm (sort defaultSort ms))
    (hf : List.Forall₂ SameMessage l ms') : List.Forall₂ SameMessage (sort defaultSort ms) (sort' defaultSort ms') := by
  by_cases h2 : 2 ≤ ms.length
  · obtain ⟨p1, s1⟩ := hs.sorted defaultSort tidy ms h2 hn ho
    generalize hL : sort defaultSort ms = L at *
    have hnorm : ∀ m ∈ L, tidy m = m := by
      intro m hm
      obtain ⟨x, _, rfl⟩ := List.mem_map.1 (p1.mem_iff.1 hm)
      exact tidy_tidy x
    have hmap : L.map tidy = L := by
      conv => rhs; rw [← List.map_id L]
      exact List.map_congr_left hnorm
    have hoL : StrictOn defaultSort L :=
      ⟨fun a ha b hb => ho.total a (p1.mem_iff.1 ha) b (p1.mem_iff.1 hb), fun a ha => ho.irrefl a (p1.mem_iff.1 ha),
        fun a ha b hb c hc => ho.trans a (p1.mem_iff.1 ha) b (p1.mem_iff.1 hb) c (p1.mem_iff.1 hc)⟩
    have hnL : Normalises defaultSort tidy L := defaultSort_normalises (.inr hnorm)
    have hlen : 2 ≤ L.length := by rw [p1.length_eq, List.length_map]; exact h2
    have hfix : sort defaultSort L = L := by
      obtain ⟨p2, s2⟩ := hs.sorted defaultSort tidy L hlen hnL (by rw [hmap]; exact hoL)
      rw [hmap] at p2
      refine List.Perm.eq_of_pairwise (le := fun a b => ¬ (defaultSort b a).1 < 0) ?_ s2 s1 p2
      intro a b ha hb h1 h2
      rcases hoL.total a (p2.mem_iff.1 ha) b hb with h | h | h
      · exact h
      · exact absurd h h2
      · exact absurd h h1
    have hback : ∀ m' ∈ ms', ∃ m ∈ L, SameMessage m m' := by
      intro m' hm'
      obtain ⟨m, hm, hsm⟩ := forall₂_mem_right hf m' hm'
      exact ⟨m, hp.mem_iff.1 hm, hsm⟩
    have hnorm' : ∀ m' ∈ ms', tidy m' = m' := by
      intro m' hm'
      obtain ⟨m, hm, hsm⟩ := hback m' hm'
      have h0 := hnorm m hm
      have h1 : m.comment.map Comment.sort = m.comment := congrArg Message.comment h0
      obtain ⟨a, b, c, d, e⟩ := m'
      have h3 : a = m.comment := hsm.comment
      unfold tidy
      simp only [Message.mk.injEq, and_true]
      rw [h3, h1]
    have hmap' : ms'.map tidy = ms' := by
      conv => rhs; rw [← List.map_id ms']
      exact List.map_congr_left hnorm'
    have ho' : StrictOn defaultSort ms' := by
      refine ⟨fun a' ha' b' hb' => ?_, fun a' ha' => ?_, fun a' ha' b' hb' c' hc' => ?_⟩
      · obtain ⟨a, ha, sa⟩ := hback a' ha'
        obtain ⟨b, hb, sb⟩ := hback b' hb'
        rw [← defaultSort_same sa sb, ← defaultSort_same sb sa]
        rcases hoL.total a ha b hb with h | h
        · refine .inl (inj_of_keys hk ha' hb' ?_)
          rw [sameMessage_key sa, sameMessage_key sb, h]
        · exact .inr h
      · obtain ⟨a, ha, sa⟩ := hback a' ha'
        rw [← defaultSort_same sa sa]
        exact hoL.irrefl a ha
      · obtain ⟨a, ha, sa⟩ := hback a' ha'
        obtain ⟨b, hb, sb⟩ := hback b' hb'
        obtain ⟨c, hc, sc⟩ := hback c' hc'
        rw [← defaultSort_same sa sb, ← defaultSort_same sb sc, ← defaultSort_same sa sc]
        exact hoL.trans a ha b hb c hc
    have key := sort_same_of hs hs' hp hf hnL (defaultSort_normalises (.inr hnorm')) (by rw [hmap]; exact hoL) (by rw [hmap']; exact ho')
      (fun _ _ => tidy_same) (fun _ _ _ _ => defaultSort_same)
    rw [hfix] at key
    exact key
  · have h1 : ms.length ≤ 1 := by omega
    rw [hs.short _ _ h1] at hp ⊢
    have hlen : ms'.length ≤ 1 := by rw [← hf.length_eq, hp.length_eq]; exact h1
    rw [hs'.short _ _ hlen]
    have : l = ms := by
      match ms, h1, hp with
      | [], _, hp => exact hp.eq_nil
      | [a], _, hp => exact List.perm_singleton.1 hp
    rw [← this]
    exact hf

/-! ## What was read -/

theorem keyed_of_parse {u : Unicode} {ignore : Bool} {data : Bytes} {f : File} (h : parse u ignore data = .ok f) : Keyed f := by
  obtain ⟨_, hcon, _⟩ := parse_ok h
  exact ⟨hcon.wf, fun p hp => (hcon.inner p.1 p.2 hp).1, fun p hp q hq => (hcon.inner p.1 p.2 hp).2 q.1 q.2 hq⟩

theorem headerLoop_wf {u : Unicode} {ls : List Bytes} : ∀ {h h' : Header}, h.unknownFields.WF → headerLoop u h ls = some h' →
    h'.unknownFields.WF := by
  induction ls with
  | nil => intro h h' hw he; cases he; exact hw
  | cons l ls ih =>
    intro h h' hw he
    rw [headerLoop] at he
    split at he
    · split at he
      · exact ih hw he
      · cases he
    · refine ih ?_ he
      unfold Header.set
      split
      · rw [Verif.Props.PoFile.setField_unknown]; exact hw
      · exact hw.set _ _

theorem parseHeader_wf {u : Unicode} {m : Message} {h : Header} (hp : parseHeader u m = some h) : h.unknownFields.WF := by
  unfold parseHeader at hp
  obtain ⟨h0, h1, rfl⟩ := Option.map_eq_some_iff.1 hp
  have := headerLoop_wf (h := {}) GoMap.WF.nil h1
  exact this

theorem str_value_wf {s : Str} (h : s.WF) : s.value.WF := by
  cases s with
  | single f => simp [Str.value, GoMap.WF, GoMap.keys]
  | plural fs =>
    unfold Str.value GoMap.WF GoMap.keys
    rw [List.map_map]
    have h2 := h.2.1
    exact List.pairwise_map.2 ((List.pairwise_map.1 h2).imp fun h e => h (Int.ofNat.inj e))

end Verif.Proofs.Po
