import Verif.Model.Hytera.IpSiteConnectProtocol
import Verif.Model.Hytera.LocationProtocol
import Verif.Model.Hytera.HyteraRadioNetworkProtocol
import Verif.Model.Hytera.HyteraSimpleTransportReliabilityProtocol
import Verif.Model.Tools.PyView
/-
Objects with lazily computed, cached properties (hand-written).

A property `p` is
    if hasattr(self, "_m_p"): return self._m_p
    self._m_p = ...
    return getattr(self, "_m_p", None)
so an access may change the object: it adds a cache attribute, and may move the stream.
-/

namespace Dmr.Hytera

/-- okdmr/kaitai/hytera/ip_site_connect_protocol.py:100-137 the properties of an IPSC packet. -/
inductive IpSiteConnectProtocol.Property where
  | source_radio_id
  | destination_radio_id
  | color_code
  | is_wakeup
  deriving DecidableEq, Repr

/-- okdmr/kaitai/hytera/ip_site_connect_protocol.py:102,110,118,126 the name of the cache attribute. -/
def IpSiteConnectProtocol.Property.cache : IpSiteConnectProtocol.Property → String
  | .source_radio_id => "_m_source_radio_id"
  | .destination_radio_id => "_m_destination_radio_id"
  | .color_code => "_m_color_code"
  | .is_wakeup => "_m_is_wakeup"

/-- okdmr/kaitai/hytera/ip_site_connect_protocol.py:105,113,121,129-136 the right-hand sides of the assignments to the caches. -/
def IpSiteConnectProtocol.compute (o : IpSiteConnectProtocol) : IpSiteConnectProtocol.Property → PyVal
  | .source_radio_id => .int (Int.ofNat o.source_radio_id)
  | .destination_radio_id => .int (Int.ofNat o.destination_radio_id)
  | .color_code => .int (Int.ofNat o.color_code)
  | .is_wakeup => .bool o.is_wakeup

/-- okdmr/kaitai/hytera/ip_site_connect_protocol.py:61-137 a decoded packet in use: the attributes `_read` has assigned and
the cache attributes, in the order of their creation. -/
structure IpSiteConnectProtocol.Obj where
  attrs : IpSiteConnectProtocol
  caches : List (String × PyVal)

/-- okdmr/kaitai/hytera/ip_site_connect_protocol.py:100-137 one access to a property: the value, and the object afterwards. -/
def IpSiteConnectProtocol.Obj.access (o : IpSiteConnectProtocol.Obj) (p : IpSiteConnectProtocol.Property) :
    PyVal × IpSiteConnectProtocol.Obj :=
  match o.caches.lookup p.cache with
  | some v => (v, o)
  | none =>
    let v := o.attrs.compute p
    (v, { o with caches := o.caches ++ [(p.cache, v)] })

/-- Accesses one after another: all the values, and the object afterwards. -/
def IpSiteConnectProtocol.Obj.accesses (o : IpSiteConnectProtocol.Obj) :
    List IpSiteConnectProtocol.Property → List PyVal × IpSiteConnectProtocol.Obj
  | [] => ([], o)
  | p :: ps =>
    let (v, o) := o.access p
    let (vs, o) := o.accesses ps
    (v :: vs, o)

/-- okdmr/kaitai/hytera/ip_site_connect_protocol.py:61-137 the packet as a Python object, with its caches. -/
def IpSiteConnectProtocol.Obj.toPy (o : IpSiteConnectProtocol.Obj) : PyVal :=
  match o.attrs.toPy with
  | .struct cls attrs => .struct cls (attrs ++ o.caches)
  | v => v

/-- okdmr/kaitai/hytera/location_protocol.py:393-406 a location message in use: its attributes, the cache `_m_opcode`, and the
stream it was parsed from, which it shares with the frame that contains it. -/
structure LocationProtocol.Obj where
  attrs : LocationProtocol
  m_opcode : Option (EnumVal LocationProtocol.LpGeneralTypes)
  io : Stream

/-- okdmr/kaitai/hytera/location_protocol.py:393-406 one access to the property `opcode`. -/
def LocationProtocol.Obj.accessOpcode (o : LocationProtocol.Obj) :
    Except PyErr (EnumVal LocationProtocol.LpGeneralTypes) × LocationProtocol.Obj :=
  match o.m_opcode with
  | some v => (.ok v, o)
  | none =>
    match LocationProtocol.computeOpcode o.io with
    | (.error e, io) => (.error e, { o with io })
    | (.ok v, io) => (.ok v, { o with m_opcode := some v, io })

/-- `n` accesses one after another. -/
def LocationProtocol.Obj.accessesOpcode (o : LocationProtocol.Obj) :
    Nat → List (Except PyErr (EnumVal LocationProtocol.LpGeneralTypes)) × LocationProtocol.Obj
  | 0 => ([], o)
  | n + 1 =>
    let (v, o) := o.accessOpcode
    let (vs, o) := o.accessesOpcode n
    (v :: vs, o)

end Dmr.Hytera
