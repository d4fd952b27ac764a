import Verif.Py.Base
/-
Generated by tools/mkpyconform.py: the source file of `Hytera.IpSiteConnectHeartbeat` against the model of its classes.
-/

set_option autoImplicit false
set_option linter.unusedSimpArgs false
set_option maxHeartbeats 1000000

namespace Dmr.Py.ConformHytera

theorem IpSiteConnectHeartbeat.file : files[8]? = some Source.Hytera.IpSiteConnectHeartbeat.file := rfl

theorem IpSiteConnectHeartbeat_Keepalive_class : library.class "Hytera.IpSiteConnectHeartbeat.Keepalive" = some Source.Hytera.IpSiteConnectHeartbeat.Keepalive := class_at 8 _ IpSiteConnectHeartbeat.file 0 Source.Hytera.IpSiteConnectHeartbeat.Keepalive rfl

/-- okdmr/kaitai/hytera/ip_site_connect_heartbeat.py:32-44 against `Dmr.Hytera.IpSiteConnectHeartbeat.Keepalive`. -/
@[py] theorem IpSiteConnectHeartbeat_Keepalive_builds (n : Nat) (H : List Obj) (S : List Stream) (k : Nat) (hk : k < S.length) (s : Stream)
    (parent root : Val) : ((calls library (n + 3)).construct "Hytera.IpSiteConnectHeartbeat.Keepalive" [.io k, parent, root]).run ⟨H, S.set k s⟩ =
      after Dmr.Hytera.IpSiteConnectHeartbeat.Keepalive.read s (fun e s' => .raise e ⟨H, S.set k s'⟩)
        (built Dmr.Hytera.IpSiteConnectHeartbeat.Keepalive.toPy k parent root H S) := by
  rw [construct_eq library _ "Hytera.IpSiteConnectHeartbeat.Keepalive" _ _ IpSiteConnectHeartbeat_Keepalive_class rfl rfl]
  py_run [onStream_set _ _ _ _ hk, hk, Dmr.Hytera.IpSiteConnectHeartbeat.Keepalive.read, Dmr.Hytera.IpSiteConnectHeartbeat.Keepalive.toPy]

@[py] theorem IpSiteConnectHeartbeat_Keepalive_place (io parent root : Val) (b : Nat) (x : Dmr.Hytera.IpSiteConnectHeartbeat.Keepalive) :
    place io parent root b x.toPy = (.obj b, placeObj io parent root b x.toPy) :=
  place_part _ _ _ _ _ _ (by decide)

theorem IpSiteConnectHeartbeat_PingPong_class : library.class "Hytera.IpSiteConnectHeartbeat.PingPong" = some Source.Hytera.IpSiteConnectHeartbeat.PingPong := class_at 8 _ IpSiteConnectHeartbeat.file 1 Source.Hytera.IpSiteConnectHeartbeat.PingPong rfl

/-- okdmr/kaitai/hytera/ip_site_connect_heartbeat.py:46-80 against `Dmr.Hytera.IpSiteConnectHeartbeat.PingPong`. -/
@[py] theorem IpSiteConnectHeartbeat_PingPong_builds (n : Nat) (H : List Obj) (S : List Stream) (k : Nat) (hk : k < S.length) (s : Stream)
    (parent root : Val) : ((calls library (n + 3)).construct "Hytera.IpSiteConnectHeartbeat.PingPong" [.io k, parent, root]).run ⟨H, S.set k s⟩ =
      after Dmr.Hytera.IpSiteConnectHeartbeat.PingPong.read s (fun e s' => .raise e ⟨H, S.set k s'⟩)
        (built Dmr.Hytera.IpSiteConnectHeartbeat.PingPong.toPy k parent root H S) := by
  rw [construct_eq library _ "Hytera.IpSiteConnectHeartbeat.PingPong" _ _ IpSiteConnectHeartbeat_PingPong_class rfl rfl]
  py_run [onStream_set _ _ _ _ hk, hk, Dmr.Hytera.IpSiteConnectHeartbeat.PingPong.read, Dmr.Hytera.IpSiteConnectHeartbeat.PingPong.toPy]

@[py] theorem IpSiteConnectHeartbeat_PingPong_place (io parent root : Val) (b : Nat) (x : Dmr.Hytera.IpSiteConnectHeartbeat.PingPong) :
    place io parent root b x.toPy = (.obj b, placeObj io parent root b x.toPy) :=
  place_part _ _ _ _ _ _ (by decide)

theorem IpSiteConnectHeartbeat_Unknown_class : library.class "Hytera.IpSiteConnectHeartbeat.Unknown" = some Source.Hytera.IpSiteConnectHeartbeat.Unknown := class_at 8 _ IpSiteConnectHeartbeat.file 2 Source.Hytera.IpSiteConnectHeartbeat.Unknown rfl

/-- okdmr/kaitai/hytera/ip_site_connect_heartbeat.py:82-90 against `Dmr.Hytera.IpSiteConnectHeartbeat.Unknown`. -/
@[py] theorem IpSiteConnectHeartbeat_Unknown_builds (n : Nat) (H : List Obj) (S : List Stream) (k : Nat) (hk : k < S.length) (s : Stream)
    (parent root : Val) : ((calls library (n + 3)).construct "Hytera.IpSiteConnectHeartbeat.Unknown" [.io k, parent, root]).run ⟨H, S.set k s⟩ =
      after Dmr.Hytera.IpSiteConnectHeartbeat.Unknown.read s (fun e s' => .raise e ⟨H, S.set k s'⟩)
        (built Dmr.Hytera.IpSiteConnectHeartbeat.Unknown.toPy k parent root H S) := by
  rw [construct_eq library _ "Hytera.IpSiteConnectHeartbeat.Unknown" _ _ IpSiteConnectHeartbeat_Unknown_class rfl rfl]
  py_run [onStream_set _ _ _ _ hk, hk, Dmr.Hytera.IpSiteConnectHeartbeat.Unknown.read, Dmr.Hytera.IpSiteConnectHeartbeat.Unknown.toPy]

@[py] theorem IpSiteConnectHeartbeat_Unknown_place (io parent root : Val) (b : Nat) (x : Dmr.Hytera.IpSiteConnectHeartbeat.Unknown) :
    place io parent root b x.toPy = (.obj b, placeObj io parent root b x.toPy) :=
  place_part _ _ _ _ _ _ (by decide)

theorem IpSiteConnectHeartbeat_class : library.class "Hytera.IpSiteConnectHeartbeat" = some Source.Hytera.IpSiteConnectHeartbeat := class_at 8 _ IpSiteConnectHeartbeat.file 3 Source.Hytera.IpSiteConnectHeartbeat rfl

/-- okdmr/kaitai/hytera/ip_site_connect_heartbeat.py:14-90 against `Dmr.Hytera.IpSiteConnectHeartbeat`. -/
@[py] theorem IpSiteConnectHeartbeat_builds (n : Nat) (H : List Obj) (S : List Stream) (k : Nat) (hk : k < S.length) (s : Stream)
    (parent root : Val) : ((calls library (n + 5)).construct "Hytera.IpSiteConnectHeartbeat" [.io k, parent, root]).run ⟨H, S.set k s⟩ =
      after Dmr.Hytera.IpSiteConnectHeartbeat.read s (fun e s' => .raise e ⟨H, S.set k s'⟩)
        (built Dmr.Hytera.IpSiteConnectHeartbeat.toPy k parent root H S) := by
  rw [construct_eq library _ "Hytera.IpSiteConnectHeartbeat" _ _ IpSiteConnectHeartbeat_class rfl rfl]
  py_run [onStream_set _ _ _ _ hk, hk, Dmr.Hytera.IpSiteConnectHeartbeat.read, Dmr.Hytera.IpSiteConnectHeartbeat.toPy, Dmr.Hytera.IpSiteConnectHeartbeat.readData, Dmr.Hytera.IpSiteConnectHeartbeat.DataUnion.toPy]

@[py] theorem IpSiteConnectHeartbeat_short (n k : Nat) : (calls library (n + 5)).construct "Hytera.IpSiteConnectHeartbeat" [.io k] =
    (calls library (n + 5)).construct "Hytera.IpSiteConnectHeartbeat" [.io k, .pv .none, .pv .none] := construct_short _ _ _ _ IpSiteConnectHeartbeat_class rfl _

@[py] theorem IpSiteConnectHeartbeat_place (io parent root : Val) (b : Nat) (x : Dmr.Hytera.IpSiteConnectHeartbeat) :
    place io parent root b x.toPy = (.obj b, placeObj io (.pv .none) (.obj b) b x.toPy) :=
  place_file _ _ _ _ _ _ (by decide)

end Dmr.Py.ConformHytera
