/-- okdmr/kaitai/hytera/ip_site_connect_protocol.py:100-106 right-hand side of property `source_radio_id`
(hand-written; caching is modelled in `Verif/Model/Lazy.lean`). -/
def IpSiteConnectProtocol.source_radio_id (o : IpSiteConnectProtocol) : Nat := o.source_radio_id_raw >>> 8

/-- okdmr/kaitai/hytera/ip_site_connect_protocol.py:108-114 right-hand side of property
`destination_radio_id` (hand-written). -/
def IpSiteConnectProtocol.destination_radio_id (o : IpSiteConnectProtocol) : Nat :=
  o.destination_radio_id_raw >>> 8

/-- okdmr/kaitai/hytera/ip_site_connect_protocol.py:116-122 right-hand side of property `color_code`
(hand-written). -/
def IpSiteConnectProtocol.color_code (o : IpSiteConnectProtocol) : Nat := o.color_code_raw &&& 15

/-- okdmr/kaitai/hytera/ip_site_connect_protocol.py:124-137 right-hand side of property `is_wakeup`
(hand-written). -/
def IpSiteConnectProtocol.is_wakeup (o : IpSiteConnectProtocol) : Bool :=
  decide (o.call_type = .known .wakeup_call_2) || decide (o.call_type = .known .wakeup_call_c)
    || decide (o.slot_type = .known .slot_type_wakeup_request)
