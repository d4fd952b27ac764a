import Verif.Py.Grow
import Verif.Props.SourceStreams
/-
C67: what has been decoded stays, and a property is evaluated once. The theorems are about any use of the classes of the source, in any
memory, whether or not the objects in it were made by decoding.
-/

set_option autoImplicit false

namespace Dmr.Py


/-- What a user can do: look at an attribute or property of the object `r`, or make an object from the stream `k`. -/
inductive Use where
  | access (r : Nat) (p : String)
  | new (cls : String) (k : Nat)

/-- Doing it. -/
def Use.run (n : Nat) : Use → State → Out Val
  | .access r p, σ => Py.access library n r p σ
  | .new cls k, σ => (Py.new n cls k).run σ

/-- Doing one after another; exceptions are caught. -/
def uses (n : Nat) : List Use → State → State
  | [], σ => σ
  | u :: rest, σ => uses n rest (u.run n σ).state

theorem uses_grow (n : Nat) : ∀ (l : List Use) (σ : State), Grows rawMemo σ (uses n l σ)
  | [], σ => .refl σ
  | u :: rest, σ => by
    rw [uses]
    refine Grows.trans ?_ (uses_grow n rest _)
    have hc := calls_safe library_regular n
    cases u with
    | access r p => exact (safe_getattr hc (.obj r) p σ).1
    | new cls k => exact (hc.construct cls [.io k] σ).1

/-- C67. Whatever is done: no object disappears or changes its class; none gets or loses an attribute, or another value for one, but for the
values that properties remember; what a property has remembered stays (the bytes that `DmrDataHeader.data` has cut out are not what it
remembers); and no stream disappears or changes its bytes. -/
theorem C67_kept (n : Nat) (done : List Use) (σ : State) :
    (∀ (r : Nat) (o : Obj), σ.heap[r]? = some o → ∃ o' : Obj, (uses n done σ).heap[r]? = some o' ∧ o'.cls = o.cls ∧
      (∀ x, x ∉ memos → o'.get x = o.get x) ∧ ∀ x v, x ≠ "_raw__m_data" → o.get x = some v → o'.get x = some v) ∧
    ∀ (k : Nat) (s : Stream), σ.streams[k]? = some s → ∃ s' : Stream, (uses n done σ).streams[k]? = some s' ∧ s'.buf = s.buf := by
  have h := uses_grow n done σ
  refine ⟨fun r o ho => ?_, h.streams⟩
  obtain ⟨o', h1, h2, h3⟩ := h.objects r o ho
  refine ⟨o', h1, h2, fun x hx => ?_, fun x v hx hv => ?_⟩
  · refine h3 x (fun e => hx ?_) (.inr hx)
    rw [show x = "_raw__m_data" from e]
    decide
  · have hv : o.attrs.lookup x = some v := hv
    show o'.attrs.lookup x = _
    rw [h3 x hx (.inl (by rw [hv]; rfl)), hv]

/-- The value of an attribute or property that is there. -/
theorem access_attr {P : Program} {n r : Nat} {p : String} {σ : State} {o : Obj} (ho : σ.heap[r]? = some o) :
    access P n r p σ = match o.attrs.lookup p with
      | some v => .ok v σ
      | none => ((calls P n).property r p).run σ := by
  unfold access getattr
  show Out.bind ((fetch r).run σ) _ = _
  rw [show (fetch r).run σ = .ok o σ by unfold M.run fetch; rw [ho]]
  show (match o.attrs.lookup p with | some v => pure v | none => (calls P n).property r p : M Val).run σ = _
  cases o.attrs.lookup p <;> rfl

theorem property_run {P : Program} {n r : Nat} {p : String} {σ : State} {o : Obj} (ho : σ.heap[r]? = some o) :
    ((calls P (n + 1)).property r p).run σ = match P.property o.cls p with
      | some f => (f.call P (calls P n) [.obj r]).run σ
      | none => .raise .attribute σ := by
  show Out.bind ((fetch r).run σ) _ = _
  rw [show (fetch r).run σ = .ok o σ by unfold M.run fetch; rw [ho]]
  show (match P.property o.cls p with | some f => f.call P (calls P n) [.obj r] | none => raise .attribute : M Val).run σ = _
  cases P.property o.cls p <;> rfl

/-- C67. A property is evaluated once: if looking at an attribute or property has given a value (and not None), then, whatever is done in
between, looking at it again gives that very value (the same object, if it is one), without any effect: no object is made and no stream is
moved. -/
theorem C67_once (n m : Nat) (hm : 1 ≤ m) (r : Nat) (p : String) (hp : p ≠ "_raw__m_data") (σ τ : State) (v : Val)
    (h : access library n r p σ = .ok v τ) (hv : v ≠ .pv .none) (done : List Use) :
    access library m r p (uses m done τ) = .ok v (uses m done τ) := by
  obtain ⟨m, rfl⟩ : ∃ k, m = k + 1 := ⟨m - 1, by omega⟩
  have hg := uses_grow (m + 1) done τ
  generalize uses (m + 1) done τ = υ at hg
  cases ho : σ.heap[r]? with
  | none =>
    unfold access getattr at h
    have : Out.bind ((fetch r).run σ) _ = _ := h
    rw [show (fetch r).run σ = .raise .attribute σ by unfold M.run fetch; rw [ho]] at this
    cases this
  | some o =>
    rw [access_attr ho] at h
    cases hl : o.attrs.lookup p with
    | some w =>
      rw [hl] at h
      cases h
      obtain ⟨o', h1, -, h3⟩ := hg.objects r o ho
      rw [access_attr h1, h3 p hp (.inl (by rw [hl]; rfl)), hl]
    | none =>
      rw [hl] at h
      cases n with
      | zero => cases h
      | succ n =>
        have h : ((calls library (n + 1)).property r p).run σ = .ok v τ := h
        have hτ := ((calls_safe library_regular (n + 1)).property r p σ).1
        rw [h] at hτ
        have hτ : Grows rawMemo σ τ := hτ
        obtain ⟨o1, h1, c1, l1⟩ := hτ.objects r o ho
        obtain ⟨o2, h2, c2, l2⟩ := hg.objects r o1 h1
        rw [property_run ho] at h
        cases hf : library.property o.cls p with
        | none => rw [hf] at h; cases h
        | some f =>
          rw [hf] at h
          obtain ⟨hr, hmemo, hpm⟩ := property_regular library_regular hf
          have e1 := l1 p hp (.inr hpm)
          have e2 := l2 p hp (.inr hpm)
          have hraw : "_m_" ++ p ≠ "_raw__m_data" := by
            intro e
            have : ("_m_" ++ p).toList = "_raw__m_data".toList := by rw [e]
            rw [String.toList_append] at this
            have : (('_' :: 'm' :: '_' :: p.toList) : List Char) = '_' :: 'r' :: "aw__m_data".toList := this
            injection this with _ this
            injection this with this _
            exact absurd this (by decide)
          have key : o2.attrs.lookup ("_m_" ++ p) = some v := by
            have : o1.attrs.lookup ("_m_" ++ p) = some v := by
              rcases run_property library (calls_safe library_regular n) hr ho with ⟨w, hw, hrun⟩ | ⟨-, -, hrun⟩
              · have h : (f.call library (calls library n) [.obj r]).run σ = .ok v τ := h
                rw [hrun] at h
                cases h
                rw [ho] at h1
                cases h1
                exact hw
              · rcases hrun v τ h with h | ⟨o', a, b⟩
                · exact absurd h hv
                · rw [h1] at a
                  cases a
                  exact b
            rw [l2 _ hraw (.inl (by rw [this]; rfl)), this]
          rw [access_attr h2, e2, e1, hl]
          show ((calls library (m + 1)).property r p).run υ = _
          rw [property_run h2, c2, c1, hf]
          show (f.call library (calls library m) [.obj r]).run υ = _
          rcases run_property library (calls_safe library_regular m) hr h2 with ⟨w, hw, hrun⟩ | ⟨hn, -⟩
          · rw [key] at hw
            cases hw
            exact hrun
          · rw [key] at hn
            cases hn

/-- A memory with two addresses. -/
def twoAddresses : State :=
  ⟨[anAddress, ⟨"Hytera.RadioIp", [("_io", .io 0), ("_parent", .pv .none), ("_root", .obj 1), ("subnet", .pv (.int 10)), ("radio_id_1", .pv (.int 1)),
    ("radio_id_2", .pv (.int 2)), ("radio_id_3", .pv (.int 3))]⟩], [⟨[10, 0, 0, 80, 10, 1, 2, 3], 8, 0, 0⟩]⟩

/-- The property of the second is evaluated: -/
example : ∃ τ, Py.access library 13 1 "radio_id" twoAddresses = .ok (.pv (.int 66051)) τ := ⟨_, rfl⟩

/-- and stays what it is, whatever is done. -/
example (done : List Use) : ∃ τ, Py.access library 13 1 "radio_id" twoAddresses = .ok (.pv (.int 66051)) τ ∧
    Py.access library 13 1 "radio_id" (uses 13 done τ) = .ok (.pv (.int 66051)) (uses 13 done τ) :=
  ⟨_, rfl, C67_once 13 13 (by decide) 1 "radio_id" (by decide) twoAddresses _ (.pv (.int 66051)) rfl (by simp) done⟩

example := C67_kept 13 [.access 1 "radio_ip", .new "Hytera.RadioIp" 0, .access 0 "radio_id"] twoAddresses

end Dmr.Py
