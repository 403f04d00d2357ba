import Verif.Whole.Props

/-!
# C86: what a saved file says about its own contents
-/

set_option autoImplicit false

namespace Verif.Whole

open Xml Codec Xml.Spec
open Verif.Ns (Part NsBook)

theorem docsEv_append (lb : Bool) (a b : List Doc) : docsEv lb (a ++ b) = docsEv lb a ++ docsEv lb b := by
  induction a with
  | nil => rfl
  | cons d a ih => rw [List.cons_append, docsEv, docsEv, ih, List.append_assoc]

theorem statistics_mem (fl : Floats) (lb : Bool) (m : Meta.Metadata) :
    Event.empty "meta:document-statistic".toList
        [("meta:table-count".toList, decNat m.statistics.tables), ("meta:cell-count".toList, decNat m.statistics.cells),
         ("meta:object-count".toList, decNat m.statistics.objects),
         ("meta:ole-object-count".toList, decNat m.statistics.oleObjects)]
      ∈ docEv lb (Meta.metaDoc fl m) := by
  rw [Meta.metaDoc, docEv]
  refine List.mem_cons_of_mem _ (List.mem_append.2 (.inl ?_))
  unfold Meta.metaDocs
  rw [docsEv_append]
  refine List.mem_append.2 (.inl ?_)
  rw [docsEv_append]
  refine List.mem_append.2 (.inr ?_)
  exact List.mem_cons_self

/-- **C86.** The metadata of a saved package say how many sheets and how many cells with content it has, as long as
these are numbers of 32 bits. -/
theorem C86_statistics (fl : Floats) (defStyle : ValueType → Option String) (s : Source) (z : Package)
    (h : writePackage fl defStyle s = some z) (hns : Ns.Reachable s.ns) (hm : Meta.Spec.Kept fl s.metadata)
    (hs : s.sheets.length < 2 ^ 32) (hc : (s.sheets.map fun q => q.2.data.length).sum < 2 ^ 32) :
    ∃ ts as, tokenize z.metaXml = some ts ∧ Event.empty "meta:document-statistic".toList as ∈ events ts
      ∧ as.lookup "meta:table-count".toList = some (decNat s.sheets.length)
      ∧ as.lookup "meta:cell-count".toList = some (decNat (s.sheets.map fun q => q.2.data.length).sum) := by
  unfold writePackage at h
  cases hp : parts fl s with
  | none => rw [hp] at h; cases h
  | some w =>
    rw [hp] at h
    cases h
    have hsrc : w.src = s.calc := by
      unfold parts at hp
      split at hp
      · cases hp
      · split at hp
        · cases hp; rfl
        · cases hp
    have hok : DocOk (Meta.metaDoc fl w.src.metadata) := by
      rw [hsrc]
      exact Meta.metaDoc_ok fl _ (kept_readable fl s.metadata hm _)
    have hb : Ns.BookOk w.src.ns := by rw [hsrc]; exact Ns.reachable_ok _ hns
    have hd : DocOk (.elem false Part.metadata.root (Ns.rootAtts .metadata w.src.ns) [Meta.metaDoc fl w.src.metadata]) :=
      ⟨Ns.root_name .metadata, Ns.rootAtts_ok .metadata _ hb, hok, trivial⟩
    obtain ⟨ts, h1, h2⟩ := read_document false "UTF-8".toList (by decide) false _ _ _ hd
    have hf : fileText fl defStyle false w .metadata
        = output false (.dtd "UTF-8".toList :: docCalls (.elem false Part.metadata.root (Ns.rootAtts .metadata w.src.ns)
            [Meta.metaDoc fl w.src.metadata])) := by
      unfold fileText
      rw [Ns.writeRoot_calls]
      unfold docCalls
      rw [docItems, docsItems, docsItems, List.append_nil, List.cons_append, List.flatMap_cons, List.flatMap_append]
      rfl
    refine ⟨ts, [("meta:table-count".toList, decNat w.src.metadata.statistics.tables),
        ("meta:cell-count".toList, decNat w.src.metadata.statistics.cells),
        ("meta:object-count".toList, decNat w.src.metadata.statistics.objects),
        ("meta:ole-object-count".toList, decNat w.src.metadata.statistics.oleObjects)],
      by show tokenize (fileText _ _ _ _ _) = _; rw [hf]; exact h1, ?_, ?_, ?_⟩
    · rw [h2, docEv, docsEv, docsEv, List.append_nil]
      exact List.mem_cons_of_mem _ (List.mem_cons_of_mem _ (List.mem_append.2 (.inl (statistics_mem fl false _))))
    · show some (decNat w.src.metadata.statistics.tables) = _
      rw [hsrc]
      show some (decNat ((s.sheets.map fun p => p.2.data.length).length % 4294967296)) = _
      rw [List.length_map, Nat.mod_eq_of_lt hs]
    · show some (decNat w.src.metadata.statistics.cells) = _
      rw [hsrc]
      show some (decNat ((s.sheets.map fun p => p.2.data.length).sum % 4294967296)) = _
      rw [Nat.mod_eq_of_lt hc]

/-- A case that meets the hypotheses: two sheets. -/
theorem C86_meets : ∃ z ts as, writePackage Meta.asBits (fun _ => none) demo = some z ∧ tokenize z.metaXml = some ts
    ∧ Event.empty "meta:document-statistic".toList as ∈ events ts
    ∧ as.lookup "meta:table-count".toList = some "2".toList := by
  obtain ⟨z, _, h1, _⟩ := C78_package_partial (e := ⟨Meta.asBits, Refs.checked, {}⟩) rfl rfl (fun _ => none) demo
    demo_good
  obtain ⟨ts, as, h2, h3, h4, _⟩ := C86_statistics Meta.asBits (fun _ => none) demo z h1 demo_good.ns demo_good.metadata
    (by decide) (by decide +kernel)
  exact ⟨z, ts, as, h1, h2, h3, h4⟩

end Verif.Whole
