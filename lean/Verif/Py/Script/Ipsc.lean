import Verif.Py.Script.Decode
import Verif.Model.Lazy
/-
The packets that the tools look into.
-/

set_option autoImplicit false

namespace Dmr.Script

open Py (Shows ShowsItems ShowsAttrs Distinct library Obj Val State lookup_attr lookup_optAttr)
open Hytera (IpSiteConnectProtocol)

/-- The attributes that are assigned when a packet is decoded. -/
def ipscAttrs (x : IpSiteConnectProtocol) : List (String × PyVal) :=
  match x.toPy with
  | .struct _ l => l
  | _ => []

theorem ipsc_toPy (x : IpSiteConnectProtocol) : x.toPy = .struct "Hytera.IpSiteConnectProtocol" (ipscAttrs x) := rfl

/-- The object with the number `r` is the packet `x`, with what properties have remembered. -/
def IpscAt (σ : State) (r : Nat) (x : IpSiteConnectProtocol) (caches : List (String × PyVal)) : Prop :=
  ∃ attrs, σ.heap[r]? = some ⟨"Hytera.IpSiteConnectProtocol", attrs⟩ ∧ ShowsAttrs σ.heap attrs (ipscAttrs x ++ caches)

theorem ipsc_flat (x : IpSiteConnectProtocol) : Flat (ipscAttrs x) := by
  intro a ha
  have := Py.int_plain
  simp only [ipscAttrs, IpSiteConnectProtocol.toPy, PyVal.object, PyVal.attr, List.flatten_cons, List.cons_append, List.nil_append, List.flatten_nil,
    List.append_nil, List.mem_cons] at ha
  rcases ha with rfl | rfl | rfl | ha
  · exact .inl (by decide)
  · exact .inl (by decide)
  · exact .inl (by decide)
  refine .inr ?_
  rcases ha with rfl | rfl | rfl | rfl | rfl | rfl | rfl | rfl | rfl | rfl | rfl | rfl | rfl | rfl | rfl | rfl | rfl | ha
  all_goals first | exact Py.bytes_plain _ | exact Py.int_plain _ | exact Py.enum_plain _ _ | skip
  cases hx : x.extra_data with
  | none => rw [hx] at ha; cases ha
  | some y =>
    rw [hx] at ha
    simp only [Option.map_some, PyVal.optAttr, List.mem_singleton] at ha
    subst ha
    exact Py.bytes_plain _

/-- The name of a property. -/
def _root_.Dmr.Hytera.IpSiteConnectProtocol.Property.name : IpSiteConnectProtocol.Property → String
  | .source_radio_id => "source_radio_id"
  | .destination_radio_id => "destination_radio_id"
  | .color_code => "color_code"
  | .is_wakeup => "is_wakeup"

theorem compute_plain (x : IpSiteConnectProtocol) (p : IpSiteConnectProtocol.Property) : Py.IsPlain (x.compute p) := by
  cases p
  · exact Py.int_plain _
  · exact Py.int_plain _
  · exact Py.int_plain _
  · exact Py.bool_plain _

theorem lookup_append {α : Type} (x : String) : ∀ l m : List (String × α), (l ++ m).lookup x = (l.lookup x).or (m.lookup x)
  | [], m => by simp
  | (y, v) :: l, m => by
    rw [List.cons_append, Py.lookup_cons, Py.lookup_cons, lookup_append x l m]
    split <;> simp

/-- What the tools remember of a packet. -/
def Memos (caches : List (String × PyVal)) : Prop := ∀ a ∈ caches, a.1 ∈ Py.memos ∧ Py.IsPlain a.2

theorem memos_lookup {x : String} (hx : x ∉ Py.memos) : ∀ {caches : List (String × PyVal)}, Memos caches → caches.lookup x = none
  | [], _ => rfl
  | (y, v) :: l, h => by
    rw [Py.lookup_cons, if_neg, memos_lookup hx fun a ha => h a (List.mem_cons_of_mem _ ha)]
    rintro rfl
    exact hx (h _ (List.mem_cons_self ..)).1

/-- The first use of a property of a packet. -/
theorem ipsc_access {σ : State} {r : Nat} {x : IpSiteConnectProtocol} {caches : List (String × PyVal)} (h : IpscAt σ r x caches) (hm : Memos caches)
    (p : IpSiteConnectProtocol.Property) (hp : caches.lookup p.cache = none) :
    ∃ σ', (∀ n, (Py.getattr (Py.calls library (n + 1)) (.obj r) p.name).run σ = .ok (.pv (x.compute p)) σ') ∧
      IpscAt σ' r x (caches ++ [(p.cache, x.compute p)]) ∧ Memos (caches ++ [(p.cache, x.compute p)]) := by
  obtain ⟨attrs, ho, hs⟩ := h
  have hr := (List.getElem?_eq_some_iff.1 ho).1
  have there : ∀ {y : String} {v : PyVal}, y ∉ Py.links → (ipscAttrs x).lookup y = some v → Py.IsPlain v → attrs.lookup y = some (.pv v) := by
    intro y v hy hv hpv
    exact flat_lookup hs hy (by rw [lookup_append, hv]; rfl) hpv
  have not1 : attrs.lookup p.name = none := by
    refine absent hs (by cases p <;> decide) ?_
    rw [lookup_append, memos_lookup (by cases p <;> decide) hm, Option.or_none]
    cases p <;> (unfold IpSiteConnectProtocol.Property.name ipscAttrs IpSiteConnectProtocol.toPy; dsimp only [PyVal.object]; look_up)
  have not2 : attrs.lookup p.cache = none := by
    refine absent hs (by cases p <;> decide) ?_
    rw [lookup_append, hp, Option.or_none]
    cases p <;> (unfold IpSiteConnectProtocol.Property.cache ipscAttrs IpSiteConnectProtocol.toPy; dsimp only [PyVal.object]; look_up)
  refine ⟨⟨σ.heap.set r ⟨"Hytera.IpSiteConnectProtocol", attrs ++ [(p.cache, .pv (x.compute p))]⟩, σ.streams⟩, fun n => ?_, ?_, ?_⟩
  · cases p with
    | source_radio_id =>
      refine access_first (m := "_m_source_radio_id") Py.ConformHytera.IpSiteConnectProtocol_class rfl ho not1 not2 ?_
      have a1 := there (y := "source_radio_id_raw") (by decide) rfl (Py.int_plain _)
      py_run [Py.fetch_run ho, a1, IpSiteConnectProtocol.source_radio_id, IpSiteConnectProtocol.compute]
    | destination_radio_id =>
      refine access_first (m := "_m_destination_radio_id") Py.ConformHytera.IpSiteConnectProtocol_class rfl ho not1 not2 ?_
      have a1 := there (y := "destination_radio_id_raw") (by decide) rfl (Py.int_plain _)
      py_run [Py.fetch_run ho, a1, IpSiteConnectProtocol.destination_radio_id, IpSiteConnectProtocol.compute]
    | color_code =>
      refine access_first (m := "_m_color_code") Py.ConformHytera.IpSiteConnectProtocol_class rfl ho not1 not2 ?_
      have a1 := there (y := "color_code_raw") (by decide) rfl (Py.int_plain _)
      py_run [Py.fetch_run ho, a1, IpSiteConnectProtocol.color_code, IpSiteConnectProtocol.compute]
    | is_wakeup =>
      refine access_first (m := "_m_is_wakeup") Py.ConformHytera.IpSiteConnectProtocol_class rfl ho not1 not2 ?_
      have a1 := there (y := "call_type") (by decide) rfl (Py.enum_plain _ _)
      have a2 := there (y := "slot_type") (by decide) rfl (Py.enum_plain _ _)
      py_run [Py.fetch_run ho, a1, a2, IpSiteConnectProtocol.is_wakeup, IpSiteConnectProtocol.compute]
      by_cases h1 : x.call_type = .known .wakeup_call_2
      · simp [h1]
      · by_cases h2 : x.call_type = .known .wakeup_call_c <;> simp [h1, h2]
  · refine ⟨_, List.getElem?_set_self hr, ?_⟩
    rw [← List.append_assoc]
    refine shows_snoc (by cases p <;> decide) (compute_plain x p) (flat_shows hs fun a ha => ?_)
    rcases List.mem_append.1 ha with ha | ha
    · exact ipsc_flat x a ha
    · exact .inr (hm a ha).2
  · intro a ha
    rcases List.mem_append.1 ha with ha | ha
    · exact hm a ha
    · rw [List.mem_singleton] at ha
      subst ha
      exact ⟨show p.cache ∈ Py.memos by cases p <;> decide, compute_plain x p⟩

/-- What a packet remembers after the tools have used its properties. -/
def ipscMemos (x : IpSiteConnectProtocol) : List (String × PyVal) :=
  [("_m_source_radio_id", x.compute .source_radio_id), ("_m_destination_radio_id", x.compute .destination_radio_id),
   ("_m_color_code", x.compute .color_code), ("_m_is_wakeup", x.compute .is_wakeup)]

theorem ipsc_accesses (x : IpSiteConnectProtocol) :
    (IpSiteConnectProtocol.Obj.accesses ⟨x, []⟩ [.source_radio_id, .destination_radio_id, .color_code, .is_wakeup]).2 = ⟨x, ipscMemos x⟩ := rfl

/-- The four properties one after another. -/
theorem ipsc_four {σ : State} {r : Nat} {x : IpSiteConnectProtocol} (h : IpscAt σ r x []) :
    ∃ σ1 σ2 σ3 σ4, ∀ n,
      (Py.getattr (Py.calls library (n + 1)) (.obj r) "source_radio_id").run σ = .ok (.pv (x.compute .source_radio_id)) σ1 ∧
      (Py.getattr (Py.calls library (n + 1)) (.obj r) "destination_radio_id").run σ1 = .ok (.pv (x.compute .destination_radio_id)) σ2 ∧
      (Py.getattr (Py.calls library (n + 1)) (.obj r) "color_code").run σ2 = .ok (.pv (x.compute .color_code)) σ3 ∧
      (Py.getattr (Py.calls library (n + 1)) (.obj r) "is_wakeup").run σ3 = .ok (.pv (x.compute .is_wakeup)) σ4 ∧
      IpscAt σ4 r x (ipscMemos x) := by
  obtain ⟨σ1, r1, h1, m1⟩ := ipsc_access h (by intro a ha; cases ha) .source_radio_id rfl
  obtain ⟨σ2, r2, h2, m2⟩ := ipsc_access h1 m1 .destination_radio_id rfl
  obtain ⟨σ3, r3, h3, m3⟩ := ipsc_access h2 m2 .color_code rfl
  obtain ⟨σ4, r4, h4, m4⟩ := ipsc_access h3 m3 .is_wakeup rfl
  exact ⟨σ1, σ2, σ3, σ4, fun n => ⟨r1 n, r2 n, r3 n, r4 n, h4⟩⟩

end Dmr.Script
