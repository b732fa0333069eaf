import Verif.MergeThms2
/-!
# Property C65: design units and source locations of the merged database
-/

namespace Verif
open Spec Merge

/-- A design unit followed by an instance of it. -/
def Spec.unitAndInstance (x : Scope × Scope) : List Scope := [x.1, x.2]

/-- **C65** (design units) The top-level scopes created by a merge are pairs of a design unit and an
instance that refers to it.  Design unit and location are those of the instance of this name in the
first input that has one. -/
theorem C65_design_units {out : Scope} {srcs : List Scope}
    (hu : ∀ s ∈ srcs, UniqueNames s) (dst : Scope) (h : merge dst srcs = .ok out) :
    ∃ pairs : List (Scope × Scope), out.children = dst.children ++ pairs.flatMap unitAndInstance ∧
      ∀ x ∈ pairs, x.1.stype = ST.DU_MODULE ∧ x.2.stype = ST.INSTANCE ∧ x.1.children = [] ∧
        x.2.du = some ⟨x.1.name, x.1.src, x.1.weight⟩ ∧
        ∃ first, (srcs.flatMap (reach [(ST.INSTANCE, x.2.name)])).head? = some first ∧
          first.du = some ⟨x.1.name, x.1.src, x.1.weight⟩ ∧ x.2.src = first.src := by
  obtain ⟨hok, rfl⟩ := Merge.merge_ok h
  refine ⟨(childNames ST.INSTANCE srcs).map (fun k =>
    (mkDu (headDu (named ST.INSTANCE srcs k)).name (headDu (named ST.INSTANCE srcs k)).src (headDu (named ST.INSTANCE srcs k)).weight,
     mkInstance k (headSrc (named ST.INSTANCE srcs k)) 1 (some (headDu (named ST.INSTANCE srcs k))) (pCovergroups (named ST.INSTANCE srcs k)))), ?_, ?_⟩
  · simp only [pMerge, List.flatMap_map]; rfl
  · intro x hx
    obtain ⟨k, hk, rfl⟩ := List.mem_map.1 hx
    refine ⟨rfl, rfl, rfl, rfl, ?_⟩
    obtain ⟨⟨s, du, hs, hdu⟩, _⟩ := hok k hk
    have e : srcs.flatMap (reach [(ST.INSTANCE, k)]) = named ST.INSTANCE srcs k := by
      rw [← contrib_of_unique (.inst k) hu, named_eq_pick (by decide)]; rfl
    refine ⟨s, ?_, ?_, ?_⟩
    · show (srcs.flatMap (reach [(ST.INSTANCE, k)])).head? = some s
      rw [e]; exact hs
    · simp [mkDu, headDu, hs, hdu]
    · simp [mkInstance, headSrc, hs]

/-- **C65** (locations) Every merged instance, covergroup, cover-instance, coverpoint and cross has
the source location of the scope at the same address in the first input that has one. -/
theorem C65_locations {out : Scope} {srcs : List Scope}
    (hu : ∀ s ∈ srcs, UniqueNames s) (h : merge emptyDb srcs = .ok out)
    {p : Addr} (hp : AnyAddr p) {c : Scope} (hc : c ∈ reach p out) :
    ∃ first, (srcs.flatMap (reach p)).head? = some first ∧ c.src = first.src := by
  cases hp with
  | inst i =>
    obtain ⟨pairs, hch, hx⟩ := C65_design_units hu emptyDb h
    have hmem : c ∈ out.children ∧ maskHit c.stype ST.INSTANCE = true ∧ c.name = i := by
      simp only [reach, childrenAt, List.mem_flatMap, List.mem_filter, Bool.and_eq_true, decide_eq_true_eq,
        List.mem_singleton] at hc
      obtain ⟨a, ⟨ha, hm, hn⟩, rfl⟩ := hc
      exact ⟨ha, hm, hn⟩
    obtain ⟨h1, h2, rfl⟩ := hmem
    rw [hch] at h1
    simp only [emptyDb, List.nil_append, List.mem_flatMap] at h1
    obtain ⟨x, hxm, hcx⟩ := h1
    obtain ⟨e1, e2, _, _, first, hf, _, hs⟩ := hx x hxm
    rcases List.mem_cons.1 hcx with rfl | hcx
    · rw [e1] at h2; exact absurd h2 (by decide)
    · obtain rfl := List.mem_singleton.1 hcx
      exact ⟨first, hf, hs⟩
  | group hp =>
    obtain ⟨f, h1, _, h3⟩ := C07_group_weight_of_first hu h hp hc
    exact ⟨f, h1, h3⟩
  | leaf hp =>
    obtain ⟨f, h1, _, h3⟩ := C07_leaf_weight_of_first hu h hp hc
    exact ⟨f, h1, h3⟩

example : (∀ s ∈ [Ex.dbA, Ex.dbB], UniqueNames s) ∧ merge emptyDb [Ex.dbA, Ex.dbB] = .ok Ex.out ∧
    Ex.out.children.length = 4 := ⟨by decide, Ex.merge_ok, by decide⟩

end Verif
