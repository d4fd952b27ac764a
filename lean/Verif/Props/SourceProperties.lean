import Verif.Py.PropertyData
import Verif.Py.PropertyStreams
import Verif.Props.PropertiesDecoded
import Verif.Props.Source
/-
C60: the properties of the source (those that are computed when they are first used), run by the interpreter of Verif/Py/Semantics,
give what the model of them says, and what they are specified to be, in whatever order they are used.
-/

set_option autoImplicit false

namespace Dmr.Py

open Properties (Kept attributes_value access_stable lazySpecs_stable lazySpecs_fresh)

/-- What is shown of every class. -/
def ClassSim (c : LazyClass) : Prop := ∀ (p : String) (g : Getter c.Attrs), c.getters.lookup p = some g → PropertySim c p g

theorem classSim_one {c : LazyClass} {p : String} {g : Getter c.Attrs} (hc : c.getters = [(p, g)]) (h : PropertySim c p g) : ClassSim c := by
  intro q f hf
  rw [hc, lookup_cons] at hf
  by_cases e : q = p
  · subst e; rw [if_pos rfl] at hf; cases hf; exact h
  · rw [if_neg e] at hf; cases hf

theorem classSim_two {c : LazyClass} {p q : String} {f g : Getter c.Attrs} (hc : c.getters = [(p, f), (q, g)]) (h : PropertySim c p f)
    (h' : PropertySim c q g) : ClassSim c := by
  intro x y hf
  rw [hc, lookup_cons] at hf
  by_cases e : x = p
  · subst e; rw [if_pos rfl] at hf; cases hf; exact h
  · rw [if_neg e, lookup_cons] at hf
    by_cases e : x = q
    · subst e; rw [if_pos rfl] at hf; cases hf; exact h'
    · rw [if_neg e] at hf; cases hf

theorem classSim_ipsc : ClassSim ipscClass := by
  intro x y hf
  simp only [Hytera.IpSiteConnectProtocol.getters, lookup_cons, List.lookup_nil] at hf
  split at hf
  · rename_i e; subst e; cases hf; exact ipsc_source_radio_id
  split at hf
  · rename_i e; subst e; cases hf; exact ipsc_destination_radio_id
  split at hf
  · rename_i e; subst e; cases hf; exact ipsc_color_code
  split at hf
  · rename_i e; subst e; cases hf; exact ipsc_is_wakeup
  cases hf

theorem lazySpecs_sim : ∀ s ∈ lazySpecs, ClassSim s.cls := by
  simp only [lazySpecs, List.forall_mem_cons]
  refine ⟨classSim_two rfl radio_ip_radio_id radio_ip_radio_ip, classSim_one rfl radio_id_radio_id, classSim_one rfl gpsdata_gps_available,
    classSim_ipsc, classSim_two rfl rtp_if_exists rtp_len_padding, classSim_one rfl telemetry_specific_service,
    classSim_one rfl text_option_sum_len, classSim_one rfl location_opcode, classSim_one rfl sequence_sequence_number,
    classSim_one rfl ackSequence_sequence_number, classSim_one rfl motorolaText_custom_pdu_type, classSim_one rfl homebrew_fifth_letter,
    classSim_one rfl mmdvm_fifth_letter, classSim_one rfl shortRaw_appended_blocks, classSim_one rfl shortStatusPrecoded_appended_blocks,
    classSim_one rfl shortDefined_appended_blocks, classSim_one rfl data_data, by simp⟩

theorem Outcome.stays {h h' : List Obj} (s : Stays h h') {w : Except PyErr Val} {v : Except PyErr PyVal} (e : Outcome h w v) : Outcome h' w v := by
  cases w <;> cases v <;> first | exact e | exact Reads.stays s e

theorem Unchanged.refl (rs : List Nat) (k : Nat) (σ : State) : Unchanged rs k σ σ :=
  ⟨fun _ _ _ h => h, fun _ o h => ⟨o, h, rfl, fun _ _ => rfl⟩, fun _ _ _ h => h⟩

theorem Unchanged.of_rest {rs : List Nat} {r k : Nat} {σ τ : State} (h : Rest r k σ τ) (hr : r ∈ rs) : Unchanged rs k σ τ :=
  ⟨fun q o hq ho => h.others q o (fun e => hq (e ▸ hr)) ho, h.stays, h.streams⟩

theorem Unchanged.trans {rs : List Nat} {k : Nat} {σ τ υ : State} (h1 : Unchanged rs k σ τ) (h2 : Unchanged rs k τ υ) : Unchanged rs k σ υ := by
  refine ⟨fun q o e h => h2.others q o e (h1.others q o e h), fun q o h => ?_, fun j s e h => h2.streams j s e (h1.streams j s e h)⟩
  obtain ⟨o1, a1, b1, c1⟩ := h1.objects q o h
  obtain ⟨o2, a2, b2, c2⟩ := h2.objects q o1 a1
  exact ⟨o2, a2, b2.trans b1, fun x hx => (c2 x hx).trans (c1 x hx)⟩

theorem lookup_isSome_of_mem {β : Type} {l : List (String × β)} {p : String} (h : p ∈ l.map Prod.fst) : (l.lookup p).isSome := by
  induction l with
  | nil => cases h
  | cons a l ih =>
    rw [lookup_cons]
    by_cases e : p = a.1
    · rw [if_pos e]; rfl
    · rw [if_neg e]
      rw [List.map_cons] at h
      rcases List.mem_cons.1 h with h | h
      · exact absurd h e
      · exact ih h

/-- What is kept while properties are used: each object is what it was, apart from what is remembered, which is right. -/
def Kept' (subs : List (Nat × Subject)) (k : Nat) (σ : State) (io : Stream) : Prop :=
  ∀ x ∈ subs, ∃ y : Subject, y.attributes = x.2.attributes ∧ y.Honest io.buf ∧ Holds σ x.1 k y.spec.cls y.obj io

theorem attributes_spec {x y : Subject} (h : y.attributes = x.attributes) : y.spec = x.spec := congrArg Sigma.fst h

/-- One access. -/
theorem one_access {n : Nat} (hn : 13 ≤ n) {subs : List (Nat × Subject)} {k : Nat} {σ : State} {io : Stream} (nd : (subs.map Prod.fst).Nodup)
    (known : ∀ x ∈ subs, x.2.spec ∈ lazySpecs) (hi : Kept' subs k σ io) {x : Nat × Subject} (hx : x ∈ subs) {p : String}
    (hp : (x.2.spec.cls.getters.lookup p).isSome) :
    ∃ (out : Except PyErr Val) (τ : State) (io' : Stream),
      access library n x.1 p σ = (match out with | .ok v => .ok v τ | .error e => .raise e τ) ∧ Outcome τ.heap out (x.2.value io.buf p) ∧
      Kept' subs k τ io' ∧ io'.buf = io.buf ∧ ((x.2.value io.buf p).toBool = true → Kept io io') ∧ Unchanged (subs.map Prod.fst) k σ τ := by
  obtain ⟨y, ha, hh, ho⟩ := hi x hx
  have hs := attributes_spec ha
  rw [← hs] at hp
  obtain ⟨g, hg⟩ := Option.isSome_iff_exists.1 hp
  have hk : y.spec ∈ lazySpecs := by rw [hs]; exact known x hx
  obtain ⟨z, io', h1, h2, h3, h4, h5⟩ := access_stable y (lazySpecs_stable _ hk) p io hh
  rw [attributes_value ha] at h1 h5
  obtain ⟨n, rfl⟩ : ∃ m, n = m + 1 := ⟨n - 1, by omega⟩
  obtain ⟨τ, o1, o2, o3⟩ := lazySpecs_sim _ hk p g hg n (by omega) σ x.1 k y.obj io ho
  unfold Instance.access at h1
  have hg' : y.toInstance.cls.getters.lookup p = some g := hg
  rw [hg'] at h1
  obtain ⟨ys, yo⟩ := y
  obtain ⟨zs, zo⟩ := z
  have hz : zs = ys := attributes_spec h2
  subst hz
  dsimp only [Subject.toInstance] at h1 o1 o2 o3 hs ho ha h2 h3
  rcases hgy : g yo io with ⟨v, o', io1⟩
  rw [hgy] at h1 o1 o2
  dsimp only at h1 o1 o2
  injection h1 with e1 e2
  injection e2 with e2 e3
  injection e2 with _ e2
  subst e1 e2 e3
  have hkept : Kept' subs k τ io1 := by
    intro w hw
    by_cases e : w.1 = x.1
    · have : w = x := List.inj_on_of_nodup_map nd hw hx e
      subst this
      exact ⟨⟨zs, o'⟩, h2.trans ha, by rw [h4]; exact h3, o2⟩
    · obtain ⟨u, a, b, c⟩ := hi w hw
      exact ⟨u, a, by rw [h4]; exact b, c.other e o3 o2.stream⟩
  have hun : Unchanged (subs.map Prod.fst) k σ τ := .of_rest o3 (List.mem_map_of_mem hx)
  rcases hv : x.2.value io.buf p with e | v
  · rw [hv] at o1 h5
    exact ⟨.error e, τ, io1, o1, rfl, hkept, h4, h5, hun⟩
  · rw [hv] at o1 h5
    obtain ⟨w, o1, hw⟩ := o1
    exact ⟨.ok w, τ, io1, o1, hw, hkept, h4, h5, hun⟩

/-- **C60.** The properties of the source, run on any object of their class wherever it is in the memory, do what their model says. -/
theorem C60_access (s : LazySpec) (hs : s ∈ lazySpecs) (p : String) (g : Getter s.cls.Attrs) (hg : s.cls.getters.lookup p = some g)
    (n : Nat) (hn : 13 ≤ n) (σ : State) (r k : Nat) (o : PyObj s.cls.Attrs) (io : Stream) (ho : Holds σ r k s.cls o io) :
    Simulates σ r k s.cls (access library n r p σ) (g o io) := by
  obtain ⟨n, rfl⟩ : ∃ m, n = m + 1 := ⟨n - 1, by omega⟩
  exact lazySpecs_sim s hs p g hg n (by omega) σ r k o io ho

/-- **C60.** Objects `subs` (each with its number) of any classes with properties share the stream `k`. Whatever the order and the
number of accesses, running the source gives each time what the property is specified to be, which depends on what was decoded and
on the bytes only; and nothing else changes: no other object, no attribute, no other stream, not the bytes of this stream, and not
its position if nothing was raised. -/
theorem C60_schedule (n : Nat) (hn : 13 ≤ n) (subs : List (Nat × Subject)) (k : Nat) (σ : State) (io : Stream)
    (stream : σ.streams[k]? = some io) (schedule : List ((Nat × Subject) × String)) (distinct : (subs.map Prod.fst).Nodup) (known : ∀ x ∈ subs, x.2.spec ∈ lazySpecs)
    (honest : ∀ x ∈ subs, x.2.Honest io.buf) (holds : ∀ x ∈ subs, Holds σ x.1 k x.2.spec.cls x.2.obj io)
    (valid : ∀ a ∈ schedule, a.1 ∈ subs ∧ a.2 ∈ a.1.2.spec.cls.getters.map Prod.fst) :
    ∃ outs τ io', accesses library n (schedule.map fun a => (a.1.1, a.2)) σ = (outs, τ) ∧
      List.Forall₂ (Outcome τ.heap) outs (schedule.map fun a => a.1.2.value io.buf a.2) ∧
      Unchanged (subs.map Prod.fst) k σ τ ∧ τ.streams[k]? = some io' ∧ io'.buf = io.buf ∧
      ((∀ a ∈ schedule, (a.1.2.value io.buf a.2).toBool = true) → io'.pos = io.pos) := by
  suffices h : ∀ (σ : State) (io : Stream), σ.streams[k]? = some io → Kept' subs k σ io →
      ∃ outs τ io', accesses library n (schedule.map fun a => (a.1.1, a.2)) σ = (outs, τ) ∧
        List.Forall₂ (Outcome τ.heap) outs (schedule.map fun a => a.1.2.value io.buf a.2) ∧
        Unchanged (subs.map Prod.fst) k σ τ ∧ τ.streams[k]? = some io' ∧ io'.buf = io.buf ∧
        ((∀ a ∈ schedule, (a.1.2.value io.buf a.2).toBool = true) → Kept io io') by
    obtain ⟨outs, τ, io', h1, h2, h3, h4, h5, h6⟩ := h σ io stream fun x hx => ⟨x.2, rfl, honest x hx, holds x hx⟩
    refine ⟨outs, τ, io', h1, h2, h3, h4, h5, fun h => ?_⟩
    rcases h6 h with rfl | rfl <;> rfl
  clear honest holds stream σ io
  induction schedule with
  | nil => intro σ io hs _; exact ⟨[], σ, io, rfl, .nil, .refl _ _ _, hs, rfl, fun _ => .inl rfl⟩
  | cons a rest ih =>
    intro σ io hs hi
    obtain ⟨⟨hx, hp⟩, hrest⟩ := List.forall_mem_cons.1 valid
    obtain ⟨out, τ, io1, a1, a2, a3, a4, a5, a6⟩ := one_access hn distinct known hi hx (p := a.2) (lookup_isSome_of_mem hp)
    have hs1 : τ.streams[k]? = some io1 := by
      obtain ⟨_, _, _, h⟩ := a3 a.1 hx
      exact h.stream
    obtain ⟨outs, υ, io2, b1, b2, b3, b4, b5, b6⟩ := ih hrest τ io1 hs1 a3
    rw [a4] at b2 b6
    refine ⟨out :: outs, υ, io2, ?_, .cons (a2.stays b3.objects) b2, a6.trans b3, b4, b5.trans a4, fun h => ?_⟩
    · rw [List.map_cons, accesses, a1]
      cases out <;> dsimp only <;> rw [b1]
    · obtain ⟨h1, h2⟩ := List.forall_mem_cons.1 h
      exact (a5 h1).trans (b6 h2)

/-! ### Objects that have just been decoded -/

theorem lookup_filter {β : Type} (f : String × β → Bool) (x : String) (hf : ∀ y v, y = x → f (y, v) = true) :
    ∀ l : List (String × β), (l.filter f).lookup x = l.lookup x
  | [] => rfl
  | (y, v) :: l => by
    rw [List.filter_cons, lookup_cons]
    by_cases e : x = y
    · rw [if_pos e, if_pos (hf y v e.symm), lookup_cons, if_pos e]
    · rw [if_neg e]
      split
      · rw [lookup_cons, if_neg e]; exact lookup_filter f x hf l
      · exact lookup_filter f x hf l

theorem lookup_filter_none {β : Type} (f : String × β → Bool) (x : String) (hf : ∀ y v, y = x → f (y, v) = false) :
    ∀ l : List (String × β), (l.filter f).lookup x = none
  | [] => rfl
  | (y, v) :: l => by
    rw [List.filter_cons]
    split
    · rename_i h
      rw [lookup_cons]
      by_cases e : x = y
      · exact absurd h (by rw [hf y v e.symm]; simp)
      · rw [if_neg e]; exact lookup_filter_none f x hf l
    · exact lookup_filter_none f x hf l

/-- Decoding remembers nothing under this name. -/
def NoRaw (c : LazyClass) : Prop := ∀ (a : c.Attrs), ∃ cls vs, c.view a = .struct cls vs ∧ vs.lookup "_raw__m_data" = none

theorem lazySpecs_noRaw : ∀ s ∈ lazySpecs, NoRaw s.cls := by
  simp only [lazySpecs, List.forall_mem_cons]
  refine ⟨?_, ?_, ?_, ?_, ?_, ?_, ?_, ?_, ?_, ?_, ?_, ?_, ?_, ?_, ?_, ?_, ?_, by simp⟩ <;> (intro a; refine ⟨_, _, rfl, ?_⟩; look_up)

theorem memos_cache : ∀ x ∈ memos, x ≠ "_raw__m_data" → "_m_".toList.isPrefixOf x.toList = true := by decide +kernel

theorem raw_not_cache : "_m_".toList.isPrefixOf "_raw__m_data".toList = false := by decide +kernel

/-- An object that decoding has created. -/
theorem decoded_holds {c : LazyClass} (hc : NoRaw c) {heap : List Obj} {s : Stream} (nav : Navigable heap) {r : Nat} {a : c.Attrs}
    (h : Shows heap (.obj r) (c.view a)) : Holds ⟨heap, [s]⟩ r 0 c (c.fresh a) s := by
  obtain ⟨cls, vs, hv, hraw⟩ := hc a
  rw [hv] at h
  cases h with
  | object at_ e =>
    rename_i attrs
    refine ⟨rfl, cls, vs, attrs, hv, at_, nav.io _ (List.mem_of_getElem? at_), fun hf => ?_, fun x hx => ?_⟩
    · by_cases h0 : r = 0
      · subst h0
        obtain ⟨o, h1, _, h2⟩ := nav.top
        rw [at_] at h1
        cases h1
        exact h2
      · have hr : r ∈ heap.flatMap partsOf := by
          rw [nav.once.mem_iff, List.mem_range'_1]
          have := (List.getElem?_eq_some_iff.1 at_).1
          omega
        obtain ⟨o, ho, hp⟩ := List.mem_flatMap.1 hr
        obtain ⟨q, hq⟩ := List.getElem?_of_mem ho
        obtain ⟨p, h1, h2⟩ := nav.part q o hq r hp
        rw [at_] at h1
        cases h1
        rw [if_pos hf] at h2
        exact h2.2
    · have := Shows.attrs_like e x hx
      have hcaches : (c.fresh a).caches = vs.filter fun a => "_m_".toList.isPrefixOf a.1.toList := by
        show (c.view a).caches = _
        rw [hv]; rfl
      by_cases hm : x ∈ memos
      · rw [if_pos hm, hcaches]
        by_cases hw : x = "_raw__m_data"
        · subst hw
          rw [hraw] at this
          rw [lookup_filter_none _ _ (by rintro y v rfl; exact raw_not_cache)]
          exact this
        · rw [lookup_filter _ _ (by rintro y v rfl; exact memos_cache _ hm hw)]
          exact this
      · rw [if_neg hm]
        exact this

theorem read_keeps (d : ObjectDecoder) (hd : d ∈ objectDecoders) {b : Bytes} {x : d.Obj} {s : Stream} (h : d.read (Stream.new b) = (.ok x, s)) :
    s.buf = b := by
  have he : Rd.eval d.read (Stream.at b 0) = .ok (x, s) := by
    have : Stream.at b 0 = Stream.new b := Stream.at_byte b 0
    unfold Rd.eval
    rw [this, h]
  obtain ⟨n, -, rfl, -⟩ := objectDecoders_fit d hd b 0 x s (by omega) (fun _ => by omega) he
  rfl

/-- **C60.** After any decoding that has succeeded, the properties of the objects that it has created give what they are specified
to be, whatever the order of the accesses. -/
theorem C60_decoded (d : ObjectDecoder) (hd : d ∈ objectDecoders) (n : Nat) (hn : 13 ≤ n) (b : Bytes) (v : Val) (σ : State)
    (h : Py.fromBytes library n d.name b = .ok v σ)
    (subs : List (Nat × Subject)) (distinct : (subs.map Prod.fst).Nodup) (known : ∀ x ∈ subs, x.2.spec ∈ lazySpecs)
    (decoded : ∀ x ∈ subs, x.2.JustDecoded b) (shows : ∀ x ∈ subs, Shows σ.heap (.obj x.1) (x.2.spec.cls.view x.2.obj.attrs))
    (schedule : List ((Nat × Subject) × String))
    (valid : ∀ a ∈ schedule, a.1 ∈ subs ∧ a.2 ∈ a.1.2.spec.cls.getters.map Prod.fst) :
    ∃ outs τ, accesses library n (schedule.map fun a => (a.1.1, a.2)) σ = (outs, τ) ∧
      List.Forall₂ (Outcome τ.heap) outs (schedule.map fun a => a.1.2.value b a.2) ∧ Unchanged (subs.map Prod.fst) 0 σ τ ∧
      ∃ io io', σ.streams = [io] ∧ τ.streams[0]? = some io' ∧ io.buf = b ∧ io'.buf = b ∧
        ((∀ a ∈ schedule, (a.1.2.value b a.2).toBool = true) → io'.pos = io.pos) := by
  obtain ⟨make, ht⟩ := Constructs.agrees (table_claims _ (objectDecoders_in_table d hd))
  have ht := ht b
  dsimp only at ht
  rcases hx : d.read (Stream.new b) with ⟨e | x, s⟩
  · rw [hx] at ht
    rw [show Py.fromBytes library n d.name b = .raise e ⟨[], [s]⟩ from ht n hn] at h
    cases h
  rw [hx] at ht
  obtain ⟨h1, -, nav, -⟩ := ht
  generalize make x = heap at h1 nav
  rw [show Py.fromBytes library n d.name b = _ from h1 n hn] at h
  cases h
  have hb := read_keeps d hd hx
  subst hb
  obtain ⟨outs, τ, io', r1, r2, r3, r4, r5, r6⟩ := C60_schedule n hn subs 0 ⟨heap, [s]⟩ s rfl schedule distinct known (fun x hx => by
      obtain ⟨t, t', hb, h0, hr, hf⟩ := decoded x hx
      have := lazySpecs_fresh x.2.spec (known x hx) t x.2.obj.attrs t' hr h0
      rw [← hf, hb] at this
      exact this) (fun x hx => by
      obtain ⟨t, t', hb, h0, hr, hf⟩ := decoded x hx
      rw [hf]
      exact decoded_holds (lazySpecs_noRaw _ (known x hx)) nav (shows x hx)) valid
  exact ⟨outs, τ, r1, r2, r3, s, io', rfl, r4, rfl, r5, r6⟩

/-- The classes of the source with properties, by their name, and the specification of their properties. -/
def propertyClasses : List (String × LazySpec) :=
  ["Hytera.RadioIp", "Hytera.RadioId", "Hytera.Gpsdata", "Hytera.IpSiteConnectProtocol", "Hytera.RealTimeTransportProtocol",
   "Hytera.TelemetryProtocol", "Hytera.TextMessageProtocol", "Hytera.LocationProtocol",
   "Motorola.TextMessageProtocol.TextMessageHeaderSequenceAndEncoding", "Motorola.TextMessageProtocol.TmsAcknowledgementHeaderSequenceNumber",
   "Motorola.TextMessageProtocol", "Homebrew.Homebrew2015", "Homebrew.Mmdvm2020", "Etsi.DmrDataHeader.DataHeaderShortRaw",
   "Etsi.DmrDataHeader.DataHeaderShortStatusPrecoded", "Etsi.DmrDataHeader.DataHeaderShortDefined", "Etsi.DmrDataHeader"].zip lazySpecs

theorem propertyClasses_known : ∀ x ∈ propertyClasses, x.2 ∈ lazySpecs ∧ ⟨x.1, x.2.cls.Attrs, x.2.cls.read, x.2.cls.view⟩ ∈ objectDecoders := by
  unfold propertyClasses lazySpecs
  simp only [List.zip_cons_cons, List.zip_nil_right, List.forall_mem_cons]
  exact ⟨⟨List.mem_of_getElem? (i := 0) rfl, List.mem_of_getElem? (i := 68) rfl⟩,
    ⟨List.mem_of_getElem? (i := 1) rfl, List.mem_of_getElem? (i := 124) rfl⟩,
    ⟨List.mem_of_getElem? (i := 2) rfl, List.mem_of_getElem? (i := 76) rfl⟩,
    ⟨List.mem_of_getElem? (i := 3) rfl, List.mem_of_getElem? (i := 123) rfl⟩,
    ⟨List.mem_of_getElem? (i := 4) rfl, List.mem_of_getElem? (i := 127) rfl⟩,
    ⟨List.mem_of_getElem? (i := 5) rfl, List.mem_of_getElem? (i := 85) rfl⟩,
    ⟨List.mem_of_getElem? (i := 6) rfl, List.mem_of_getElem? (i := 94) rfl⟩,
    ⟨List.mem_of_getElem? (i := 7) rfl, List.mem_of_getElem? (i := 114) rfl⟩,
    ⟨List.mem_of_getElem? (i := 8) rfl, List.mem_of_getElem? (i := 151) rfl⟩,
    ⟨List.mem_of_getElem? (i := 9) rfl, List.mem_of_getElem? (i := 153) rfl⟩,
    ⟨List.mem_of_getElem? (i := 10) rfl, List.mem_of_getElem? (i := 155) rfl⟩,
    ⟨List.mem_of_getElem? (i := 11) rfl, List.mem_of_getElem? (i := 51) rfl⟩,
    ⟨List.mem_of_getElem? (i := 12) rfl, List.mem_of_getElem? (i := 67) rfl⟩,
    ⟨List.mem_of_getElem? (i := 13) rfl, List.mem_of_getElem? (i := 22) rfl⟩,
    ⟨List.mem_of_getElem? (i := 14) rfl, List.mem_of_getElem? (i := 25) rfl⟩,
    ⟨List.mem_of_getElem? (i := 15) rfl, List.mem_of_getElem? (i := 29) rfl⟩,
    ⟨List.mem_of_getElem? (i := 16) rfl, List.mem_of_getElem? (i := 31) rfl⟩, by simp⟩

/-- **C60.** From the bytes to the values of properties: `x = cls.from_bytes(b)`, and then `getattr(x, p)` for any names of
properties, in any order, gives what they are specified to be. -/
theorem C60_packet (name : String) (s : LazySpec) (known : (name, s) ∈ propertyClasses) (n : Nat) (hn : 13 ≤ n) (b : Bytes) (x : s.cls.Attrs) (h : Dmr.fromBytes s.cls.read b = .ok x) (names : List String)
    (valid : ∀ p ∈ names, p ∈ s.cls.getters.map Prod.fst) :
    ∃ σ outs τ, Py.fromBytes library n name b = .ok (.obj 0) σ ∧ Shows σ.heap (.obj 0) (s.cls.view x) ∧
      accesses library n (names.map fun p => (0, p)) σ = (outs, τ) ∧
      List.Forall₂ (Outcome τ.heap) outs (names.map (s.value x b)) ∧ Unchanged [0] 0 σ τ := by
  obtain ⟨hs, hname⟩ := propertyClasses_known _ known
  rcases hx : s.cls.read (Stream.new b) with ⟨e | y, t⟩
  · unfold Dmr.fromBytes at h; rw [hx] at h; cases h
  have : y = x := by unfold Dmr.fromBytes at h; rw [hx] at h; cases h; rfl
  subst this
  obtain ⟨heap, h1, h2⟩ := C58_returns name _ (C58_models _ hname) b y t hx
  replace h1 := h1 n hn
  obtain ⟨outs, τ, r1, r2, r3, -⟩ := C60_decoded _ hname n hn b _ _ h1 [(0, ⟨s, s.cls.fresh y⟩)] (by simp)
    (List.forall_mem_cons.2 ⟨hs, by simp⟩) (List.forall_mem_cons.2 ⟨⟨Stream.new b, t, rfl, fun _ => rfl, hx, rfl⟩, by simp⟩)
    (List.forall_mem_cons.2 ⟨h2, by simp⟩) (names.map fun p => ((0, ⟨s, s.cls.fresh y⟩), p)) (by
      intro a ha
      obtain ⟨p, hp, rfl⟩ := List.mem_map.1 ha
      exact ⟨by simp, valid p hp⟩)
  rw [List.map_map] at r1 r2
  exact ⟨_, outs, τ, h1, h2, r1, r2, r3⟩

/-- **C60.** There are no other properties in the source than those that are specified. -/
theorem C60_every_property (d : ClassDef) (hd : d ∈ library.classes) (p : String) (hp : p ∈ d.properties.map Prod.fst) :
    ∃ s, (d.name, s) ∈ propertyClasses ∧ p ∈ s.cls.getters.map Prod.fst := by
  have h : (library.classes.all fun d => d.properties.all fun p =>
      propertyClasses.any fun x => x.1 == d.name && (x.2.cls.getters.map Prod.fst).contains p.1) = true := by decide +kernel
  obtain ⟨q, hq, rfl⟩ := List.mem_map.1 hp
  have h := List.all_eq_true.1 (List.all_eq_true.1 h d hd) q hq
  obtain ⟨x, hx, hc⟩ := List.any_eq_true.1 h
  rw [Bool.and_eq_true, beq_iff_eq, List.contains_iff_mem] at hc
  exact ⟨x.2, by rw [← hc.1]; exact hx, hc.2⟩

/-! ### A location request -/

/-- A request for the position of the radio 10.0.0.80. -/
def aLocationRequest : Bytes := [0xA0, 0x01, 0, 8, 0, 0, 0, 1, 10, 0, 0, 80]

/-- What it is decoded to. -/
def aRequest : Hytera.LocationProtocol := ⟨.known .standard_request, 8, some (.standardRequest ⟨1, ⟨10, 0, 0, 80⟩⟩)⟩

theorem aRequest_read : Hytera.LocationProtocol.read (Stream.new aLocationRequest) = (.ok aRequest, ⟨aLocationRequest, 12, 0, 0⟩) := by decide +kernel

/-- The request, and the address in it. -/
def requestSubject : Subject := ⟨⟨locationClass, locationValue⟩, locationClass.fresh aRequest⟩

@[inherit_doc requestSubject]
def addressSubject : Subject := ⟨⟨radioIpClass, radioIpValue⟩, radioIpClass.fresh ⟨10, 0, 0, 80⟩⟩

/-- An attribute of an object. -/
theorem ShowsAttrs.find {h : List Obj} {attrs : List (String × Val)} {vs : List (String × PyVal)} (e : ShowsAttrs h attrs vs) {x : String} {v : PyVal}
    (hx : x ∉ links) (hv : vs.lookup x = some v) : ∃ w, attrs.lookup x = some w ∧ Shows h w v := by
  induction attrs generalizing vs with
  | nil => cases e; cases hv
  | cons a attrs ih =>
    cases e with
    | @link name _ _ _ _ l es =>
      rw [lookup_cons] at hv ⊢
      by_cases e : x = name
      · subst e; exact absurd l hx
      · rw [if_neg e] at hv ⊢; exact ih es hv
    | @cons name _ _ _ _ l e1 es =>
      rw [lookup_cons] at hv ⊢
      by_cases e : x = name
      · rw [if_pos e] at hv ⊢; cases hv; exact ⟨_, rfl, e1⟩
      · rw [if_neg e] at hv ⊢; exact ih es hv

theorem Shows.inv {h : List Obj} {w : Val} {cls : String} {vs : List (String × PyVal)} (e : Shows h w (.struct cls vs)) :
    ∃ r attrs, w = .obj r ∧ h[r]? = some ⟨cls, attrs⟩ ∧ ShowsAttrs h attrs vs := by
  cases e with
  | plain v h1 h2 => exact absurd rfl (h1 _ _)
  | object a e => exact ⟨_, _, rfl, a, e⟩

theorem Shows.inv' {h : List Obj} {r : Nat} {cls : String} {vs : List (String × PyVal)} (e : Shows h (.obj r) (.struct cls vs)) :
    ∃ attrs, h[r]? = some ⟨cls, attrs⟩ ∧ ShowsAttrs h attrs vs := by
  cases e with
  | object a e => exact ⟨_, a, e⟩

theorem Outcome.plain {h : List Obj} {o : Except PyErr Val} {v : PyVal} (hv : IsPlain v) (e : Outcome h o (.ok v)) : o = .ok (.pv v) := by
  cases o with
  | error e' => exact e.elim
  | ok w => rw [Reads.eq_plain hv e]

/-- The address in the request is an object of its own, and its properties are used between those of the request. -/
example : ∃ σ r τ, Py.fromBytes library 13 "Hytera.LocationProtocol" aLocationRequest = .ok (.obj 0) σ ∧
    accesses library 13 [(r, "radio_ip"), (0, "opcode"), (r, "radio_id"), (r, "radio_ip")] σ =
      ([.ok (.pv (.str "10.0.0.80".toList)), .ok (.pv (.enum "LpGeneralTypes" 0xA0)), .ok (.pv (.int 80)),
        .ok (.pv (.str "10.0.0.80".toList))], τ) := by
  obtain ⟨heap, h1, h2⟩ := C58_returns "Hytera.LocationProtocol" _ (C58_models ⟨"Hytera.LocationProtocol", _, _, _⟩
    (propertyClasses_known ("Hytera.LocationProtocol", ⟨locationClass, locationValue⟩) (List.mem_of_getElem? (i := 7) rfl)).2)
    aLocationRequest _ _ aRequest_read
  replace h1 := h1 13 (by decide)
  have h3 : Shows heap (.obj 0) (Hytera.LocationProtocol.toPy aRequest) := h2
  obtain ⟨_, _, e⟩ := h3.inv'
  obtain ⟨w, -, e1⟩ := e.find (x := "data") (by decide) rfl
  obtain ⟨r1, _, rfl, -, e⟩ := e1.inv
  obtain ⟨w, -, e2⟩ := e.find (x := "radio_ip") (by decide) rfl
  obtain ⟨r, _, rfl, at2, -⟩ := e2.inv
  have hr : 0 ≠ r := fun h => by
    subst h
    obtain ⟨_, at0, -⟩ := h3.inv'
    rw [at0] at at2
    have := congrArg Obj.cls (Option.some.inj at2)
    simp at this
  obtain ⟨outs, τ, a1, a2, -⟩ := C60_decoded ⟨"Hytera.LocationProtocol", _, _, _⟩
    (propertyClasses_known ("Hytera.LocationProtocol", ⟨locationClass, locationValue⟩) (List.mem_of_getElem? (i := 7) rfl)).2 13 (by decide)
    aLocationRequest _ _ h1 [(0, requestSubject), (r, addressSubject)] (by simp [hr])
    (by
      simp only [List.forall_mem_cons]
      exact ⟨List.mem_of_getElem? (i := 7) rfl, List.mem_of_getElem? (i := 0) rfl, by simp⟩)
    (by
      simp only [List.forall_mem_cons]
      exact ⟨⟨Stream.new aLocationRequest, _, rfl, by decide, aRequest_read, rfl⟩,
        ⟨⟨aLocationRequest, 8, 0, 0⟩, _, rfl, by decide, rfl, rfl⟩, by simp⟩)
    (by
      simp only [List.forall_mem_cons]
      exact ⟨h3, e2, by simp⟩)
    [((r, addressSubject), "radio_ip"), ((0, requestSubject), "opcode"), ((r, addressSubject), "radio_id"), ((r, addressSubject), "radio_ip")]
    (by
      simp only [List.forall_mem_cons]
      exact ⟨⟨.tail _ (.head _), by decide⟩, ⟨.head _, by decide⟩, ⟨.tail _ (.head _), by decide⟩, ⟨.tail _ (.head _), by decide⟩, by simp⟩)
  refine ⟨_, r, τ, h1, a1.trans ?_⟩
  have v1 : addressSubject.value aLocationRequest "radio_ip" = .ok (.str "10.0.0.80".toList) :=
    congrArg (fun l => Except.ok (PyVal.str l)) (show ['.'].intercalate ([10, 0, 0, 80].map (Nat.toDigits 10)) = "10.0.0.80".toList by decide +kernel)
  have v2 : requestSubject.value aLocationRequest "opcode" = .ok (.enum "LpGeneralTypes" 0xA0) := by rfl
  have v3 : addressSubject.value aLocationRequest "radio_id" = .ok (.int 80) := by rfl
  rw [List.map_cons, List.map_cons, List.map_cons, List.map_cons, List.map_nil, v1, v2, v3] at a2
  change List.Forall₂ (Outcome τ.heap) outs [.ok (.str "10.0.0.80".toList), .ok (.enum "LpGeneralTypes" 0xA0), .ok (.int 80),
    .ok (.str "10.0.0.80".toList)] at a2
  cases a2 with
  | cons b1 a2 => cases a2 with
    | cons b2 a2 => cases a2 with
      | cons b3 a2 => cases a2 with
        | cons b4 a2 =>
          cases a2
          rw [b1.plain (str_plain _), b2.plain ⟨by simp, by simp⟩, b3.plain (int_plain _), b4.plain (str_plain _)]

/-- The hypotheses of C60_access, C60_schedule and C60_packet are met: an address in the memory, before anything is remembered. -/
theorem anAddress_holds : Holds ⟨[anAddress], [⟨[10, 0, 0, 80], 4, 0, 0⟩]⟩ 0 0 radioIpClass ⟨⟨10, 0, 0, 80⟩, []⟩ ⟨[10, 0, 0, 80], 4, 0, 0⟩ := by
  refine ⟨rfl, "Hytera.RadioIp", _, _, rfl, rfl, rfl, fun _ => rfl, fun x hx => ?_⟩
  simp only [links, List.mem_cons, List.not_mem_nil, or_false, not_or] at hx
  by_cases hm : x ∈ memos
  · rw [if_pos hm, List.lookup_nil]
    simp only [memos, List.mem_cons, List.not_mem_nil, or_false] at hm
    rcases hm with rfl | rfl | rfl | rfl | rfl | rfl | rfl | rfl | rfl | rfl | rfl | rfl | rfl | rfl | rfl | rfl | rfl | rfl <;> trivial
  · rw [if_neg hm]
    simp only [lookup_cons, List.flatten_cons, List.flatten_nil, List.nil_append, List.cons_append, PyVal.attr, List.lookup_nil, if_neg hx.1,
      if_neg hx.2.1, if_neg hx.2.2]
    by_cases h : x = "subnet"
    · rw [if_pos h, if_pos h]; exact .plain _ (by simp) (by simp)
    rw [if_neg h, if_neg h]
    by_cases h : x = "radio_id_1"
    · rw [if_pos h, if_pos h]; exact .plain _ (by simp) (by simp)
    rw [if_neg h, if_neg h]
    by_cases h : x = "radio_id_2"
    · rw [if_pos h, if_pos h]; exact .plain _ (by simp) (by simp)
    rw [if_neg h, if_neg h]
    by_cases h : x = "radio_id_3"
    · rw [if_pos h, if_pos h]; exact .plain _ (by simp) (by simp)
    rw [if_neg h, if_neg h]
    trivial

example := C60_access ⟨radioIpClass, radioIpValue⟩ (List.mem_of_getElem? (i := 0) rfl) "radio_ip" _ rfl 13 (by decide) _ 0 0 _ _ anAddress_holds

example := C60_schedule 13 (by decide) [(0, ⟨⟨radioIpClass, radioIpValue⟩, ⟨⟨10, 0, 0, 80⟩, []⟩⟩)] 0 _ _ rfl
  [((0, ⟨⟨radioIpClass, radioIpValue⟩, ⟨⟨10, 0, 0, 80⟩, []⟩⟩), "radio_ip"), ((0, ⟨⟨radioIpClass, radioIpValue⟩, ⟨⟨10, 0, 0, 80⟩, []⟩⟩), "radio_id")]
  (by simp) (by intro x hx; rw [List.mem_singleton] at hx; subst hx; exact List.mem_of_getElem? (i := 0) rfl)
  (by intro x hx; rw [List.mem_singleton] at hx; subst hx; intro p v h; cases h)
  (by intro x hx; rw [List.mem_singleton] at hx; subst hx; exact anAddress_holds)
  (by
    intro a ha
    rcases List.mem_cons.1 ha with rfl | ha
    · exact ⟨.head _, by decide⟩
    · rw [List.mem_singleton] at ha; subst ha; exact ⟨.head _, by decide⟩)

/-- A proprietary data header: its property `data` makes a new object on a stream of its own. -/
example := C60_packet "Etsi.DmrDataHeader" ⟨dataHeaderClass, dataHeaderValue⟩ (List.mem_of_getElem? (i := 16) rfl) 13 (by decide)
  [0x0F, 0x10, 0, 0, 0, 0, 0, 0, 0, 0, 0, 0] _ rfl ["data", "data"] (by decide)

example := C60_every_property _ (List.mem_of_getElem? (i := 51) rfl) "radio_ip" (by decide)

end Dmr.Py
