import Verif.Model.Generator
/-! # The contents of the shipped dictionaries

Written by tools/embed.py. -/
namespace Radius.Gen.Shipped

/-- The contents of dicts/dictionary.rfc2865. -/
noncomputable def rfc2865Table : Dict where
  attributes := [
    ⟨c!"User-Name", 1, .String, none, false, false⟩,
    ⟨c!"User-Password", 2, .UserPassword, none, false, false⟩,
    ⟨c!"CHAP-Password", 3, .Octets, none, false, false⟩,
    ⟨c!"NAS-IP-Address", 4, .IpAddr, none, false, false⟩,
    ⟨c!"NAS-Port", 5, .Integer, none, false, false⟩,
    ⟨c!"Service-Type", 6, .Integer, none, false, false⟩,
    ⟨c!"Framed-Protocol", 7, .Integer, none, false, false⟩,
    ⟨c!"Framed-IP-Address", 8, .IpAddr, none, false, false⟩,
    ⟨c!"Framed-IP-Netmask", 9, .IpAddr, none, false, false⟩,
    ⟨c!"Framed-Routing", 10, .Integer, none, false, false⟩,
    ⟨c!"Filter-Id", 11, .String, none, false, false⟩,
    ⟨c!"Framed-MTU", 12, .Integer, none, false, false⟩,
    ⟨c!"Framed-Compression", 13, .Integer, none, false, false⟩,
    ⟨c!"Login-IP-Host", 14, .IpAddr, none, false, false⟩,
    ⟨c!"Login-Service", 15, .Integer, none, false, false⟩,
    ⟨c!"Login-TCP-Port", 16, .Integer, none, false, false⟩,
    ⟨c!"Reply-Message", 18, .String, none, false, false⟩,
    ⟨c!"Callback-Number", 19, .String, none, false, false⟩,
    ⟨c!"Callback-Id", 20, .String, none, false, false⟩,
    ⟨c!"Framed-Route", 22, .String, none, false, false⟩,
    ⟨c!"Framed-IPX-Network", 23, .IpAddr, none, false, false⟩,
    ⟨c!"State", 24, .Octets, none, false, false⟩,
    ⟨c!"Class", 25, .Octets, none, false, false⟩,
    ⟨c!"Vendor-Specific", 26, .VSA, none, false, false⟩,
    ⟨c!"Session-Timeout", 27, .Integer, none, false, false⟩,
    ⟨c!"Idle-Timeout", 28, .Integer, none, false, false⟩,
    ⟨c!"Termination-Action", 29, .Integer, none, false, false⟩,
    ⟨c!"Called-Station-Id", 30, .String, none, false, false⟩,
    ⟨c!"Calling-Station-Id", 31, .String, none, false, false⟩,
    ⟨c!"NAS-Identifier", 32, .String, none, false, false⟩,
    ⟨c!"Proxy-State", 33, .Octets, none, false, false⟩,
    ⟨c!"Login-LAT-Service", 34, .String, none, false, false⟩,
    ⟨c!"Login-LAT-Node", 35, .String, none, false, false⟩,
    ⟨c!"Login-LAT-Group", 36, .Octets, none, false, false⟩,
    ⟨c!"Framed-AppleTalk-Link", 37, .Integer, none, false, false⟩,
    ⟨c!"Framed-AppleTalk-Network", 38, .Integer, none, false, false⟩,
    ⟨c!"Framed-AppleTalk-Zone", 39, .String, none, false, false⟩,
    ⟨c!"CHAP-Challenge", 60, .Octets, none, false, false⟩,
    ⟨c!"NAS-Port-Type", 61, .Integer, none, false, false⟩,
    ⟨c!"Port-Limit", 62, .Integer, none, false, false⟩,
    ⟨c!"Login-LAT-Port", 63, .String, none, false, false⟩]
  values := [(c!"Framed-Compression", [
      ⟨c!"None", 0⟩,
      ⟨c!"Van-Jacobson-TCP-IP", 1⟩,
      ⟨c!"IPX-Header-Compression", 2⟩,
      ⟨c!"Stac-LZS", 3⟩]),
    (c!"Framed-Protocol", [
      ⟨c!"PPP", 1⟩,
      ⟨c!"SLIP", 2⟩,
      ⟨c!"ARAP", 3⟩,
      ⟨c!"Gandalf-SLML", 4⟩,
      ⟨c!"Xylogics-IPX-SLIP", 5⟩,
      ⟨c!"X.75-Synchronous", 6⟩]),
    (c!"Framed-Routing", [
      ⟨c!"None", 0⟩,
      ⟨c!"Broadcast", 1⟩,
      ⟨c!"Listen", 2⟩,
      ⟨c!"Broadcast-Listen", 3⟩]),
    (c!"Login-Service", [
      ⟨c!"Telnet", 0⟩,
      ⟨c!"Rlogin", 1⟩,
      ⟨c!"TCP-Clear", 2⟩,
      ⟨c!"PortMaster", 3⟩,
      ⟨c!"LAT", 4⟩,
      ⟨c!"X25-PAD", 5⟩,
      ⟨c!"X25-T3POS", 6⟩,
      ⟨c!"TCP-Clear-Quiet", 8⟩]),
    (c!"Login-TCP-Port", [
      ⟨c!"Telnet", 23⟩,
      ⟨c!"Rlogin", 513⟩,
      ⟨c!"Rsh", 514⟩]),
    (c!"NAS-Port-Type", [
      ⟨c!"Async", 0⟩,
      ⟨c!"Sync", 1⟩,
      ⟨c!"ISDN", 2⟩,
      ⟨c!"ISDN-V120", 3⟩,
      ⟨c!"ISDN-V110", 4⟩,
      ⟨c!"Virtual", 5⟩,
      ⟨c!"PIAFS", 6⟩,
      ⟨c!"HDLC-Clear-Channel", 7⟩,
      ⟨c!"X.25", 8⟩,
      ⟨c!"X.75", 9⟩,
      ⟨c!"G.3-Fax", 10⟩,
      ⟨c!"SDSL", 11⟩,
      ⟨c!"ADSL-CAP", 12⟩,
      ⟨c!"ADSL-DMT", 13⟩,
      ⟨c!"IDSL", 14⟩,
      ⟨c!"Ethernet", 15⟩,
      ⟨c!"xDSL", 16⟩,
      ⟨c!"Cable", 17⟩,
      ⟨c!"Wireless-Other", 18⟩,
      ⟨c!"Wireless-802.11", 19⟩]),
    (c!"Service-Type", [
      ⟨c!"Login-User", 1⟩,
      ⟨c!"Framed-User", 2⟩,
      ⟨c!"Callback-Login-User", 3⟩,
      ⟨c!"Callback-Framed-User", 4⟩,
      ⟨c!"Outbound-User", 5⟩,
      ⟨c!"Administrative-User", 6⟩,
      ⟨c!"NAS-Prompt-User", 7⟩,
      ⟨c!"Authenticate-Only", 8⟩,
      ⟨c!"Callback-NAS-Prompt", 9⟩,
      ⟨c!"Call-Check", 10⟩,
      ⟨c!"Callback-Administrative", 11⟩]),
    (c!"Termination-Action", [
      ⟨c!"Default", 0⟩,
      ⟨c!"RADIUS-Request", 1⟩])]

/-- The contents of dicts/dictionary.rfc2866. -/
noncomputable def rfc2866Table : Dict where
  attributes := [
    ⟨c!"Acct-Status-Type", 40, .Integer, none, false, false⟩,
    ⟨c!"Acct-Delay-Time", 41, .Integer, none, false, false⟩,
    ⟨c!"Acct-Input-Octets", 42, .Integer, none, false, false⟩,
    ⟨c!"Acct-Output-Octets", 43, .Integer, none, false, false⟩,
    ⟨c!"Acct-Session-Id", 44, .String, none, false, false⟩,
    ⟨c!"Acct-Authentic", 45, .Integer, none, false, false⟩,
    ⟨c!"Acct-Session-Time", 46, .Integer, none, false, false⟩,
    ⟨c!"Acct-Input-Packets", 47, .Integer, none, false, false⟩,
    ⟨c!"Acct-Output-Packets", 48, .Integer, none, false, false⟩,
    ⟨c!"Acct-Terminate-Cause", 49, .Integer, none, false, false⟩,
    ⟨c!"Acct-Multi-Session-Id", 50, .String, none, false, false⟩,
    ⟨c!"Acct-Link-Count", 51, .Integer, none, false, false⟩]
  values := [(c!"Acct-Authentic", [
      ⟨c!"RADIUS", 1⟩,
      ⟨c!"Local", 2⟩,
      ⟨c!"Remote", 3⟩,
      ⟨c!"Diameter", 4⟩]),
    (c!"Acct-Status-Type", [
      ⟨c!"Start", 1⟩,
      ⟨c!"Stop", 2⟩,
      ⟨c!"Alive", 3⟩,
      ⟨c!"Interim-Update", 3⟩,
      ⟨c!"Accounting-On", 7⟩,
      ⟨c!"Accounting-Off", 8⟩,
      ⟨c!"Failed", 15⟩]),
    (c!"Acct-Terminate-Cause", [
      ⟨c!"User-Request", 1⟩,
      ⟨c!"Lost-Carrier", 2⟩,
      ⟨c!"Lost-Service", 3⟩,
      ⟨c!"Idle-Timeout", 4⟩,
      ⟨c!"Session-Timeout", 5⟩,
      ⟨c!"Admin-Reset", 6⟩,
      ⟨c!"Admin-Reboot", 7⟩,
      ⟨c!"Port-Error", 8⟩,
      ⟨c!"NAS-Error", 9⟩,
      ⟨c!"NAS-Request", 10⟩,
      ⟨c!"NAS-Reboot", 11⟩,
      ⟨c!"Port-Unneeded", 12⟩,
      ⟨c!"Port-Preempted", 13⟩,
      ⟨c!"Port-Suspended", 14⟩,
      ⟨c!"Service-Unavailable", 15⟩,
      ⟨c!"Callback", 16⟩,
      ⟨c!"User-Error", 17⟩,
      ⟨c!"Host-Request", 18⟩])]

/-- The contents of dicts/dictionary.rfc2867. -/
noncomputable def rfc2867Table : Dict where
  attributes := [
    ⟨c!"Acct-Tunnel-Connection", 68, .String, none, false, false⟩,
    ⟨c!"Acct-Tunnel-Packets-Lost", 86, .Integer, none, false, false⟩]
  values := [(c!"Acct-Status-Type", [
      ⟨c!"Tunnel-Start", 9⟩,
      ⟨c!"Tunnel-Stop", 10⟩,
      ⟨c!"Tunnel-Reject", 11⟩,
      ⟨c!"Tunnel-Link-Start", 12⟩,
      ⟨c!"Tunnel-Link-Stop", 13⟩,
      ⟨c!"Tunnel-Link-Reject", 14⟩])]

/-- The contents of dicts/dictionary.rfc2868. -/
noncomputable def rfc2868Table : Dict where
  attributes := [
    ⟨c!"Tunnel-Type", 64, .Integer, none, false, true⟩,
    ⟨c!"Tunnel-Medium-Type", 65, .Integer, none, false, true⟩,
    ⟨c!"Tunnel-Client-Endpoint", 66, .String, none, false, true⟩,
    ⟨c!"Tunnel-Server-Endpoint", 67, .String, none, false, true⟩,
    ⟨c!"Tunnel-Password", 69, .TunnelPassword, none, false, true⟩,
    ⟨c!"Tunnel-Private-Group-Id", 81, .String, none, false, true⟩,
    ⟨c!"Tunnel-Assignment-Id", 82, .String, none, false, true⟩,
    ⟨c!"Tunnel-Preference", 83, .Integer, none, false, true⟩,
    ⟨c!"Tunnel-Client-Auth-Id", 90, .String, none, false, true⟩,
    ⟨c!"Tunnel-Server-Auth-Id", 91, .String, none, false, true⟩]
  values := [(c!"Tunnel-Medium-Type", [
      ⟨c!"IP", 1⟩,
      ⟨c!"IPv4", 1⟩,
      ⟨c!"IPv6", 2⟩,
      ⟨c!"NSAP", 3⟩,
      ⟨c!"HDLC", 4⟩,
      ⟨c!"BBN-1822", 5⟩,
      ⟨c!"IEEE-802", 6⟩,
      ⟨c!"E.163", 7⟩,
      ⟨c!"E.164", 8⟩,
      ⟨c!"F.69", 9⟩,
      ⟨c!"X.121", 10⟩,
      ⟨c!"IPX", 11⟩,
      ⟨c!"Appletalk", 12⟩,
      ⟨c!"DecNet-IV", 13⟩,
      ⟨c!"Banyan-Vines", 14⟩,
      ⟨c!"E.164-NSAP", 15⟩]),
    (c!"Tunnel-Type", [
      ⟨c!"PPTP", 1⟩,
      ⟨c!"L2F", 2⟩,
      ⟨c!"L2TP", 3⟩,
      ⟨c!"ATMP", 4⟩,
      ⟨c!"VTP", 5⟩,
      ⟨c!"AH", 6⟩,
      ⟨c!"IP", 7⟩,
      ⟨c!"MIN-IP", 8⟩,
      ⟨c!"ESP", 9⟩,
      ⟨c!"GRE", 10⟩,
      ⟨c!"DVS", 11⟩,
      ⟨c!"IP-in-IP", 12⟩])]

/-- The contents of dicts/dictionary.rfc2869. -/
noncomputable def rfc2869Table : Dict where
  attributes := [
    ⟨c!"Acct-Input-Gigawords", 52, .Integer, none, false, false⟩,
    ⟨c!"Acct-Output-Gigawords", 53, .Integer, none, false, false⟩,
    ⟨c!"Event-Timestamp", 55, .Date, none, false, false⟩,
    ⟨c!"ARAP-Password", 70, .Octets, some 16, false, false⟩,
    ⟨c!"ARAP-Features", 71, .Octets, some 14, false, false⟩,
    ⟨c!"ARAP-Zone-Access", 72, .Integer, none, false, false⟩,
    ⟨c!"ARAP-Security", 73, .Integer, none, false, false⟩,
    ⟨c!"ARAP-Security-Data", 74, .String, none, false, false⟩,
    ⟨c!"Password-Retry", 75, .Integer, none, false, false⟩,
    ⟨c!"Prompt", 76, .Integer, none, false, false⟩,
    ⟨c!"Connect-Info", 77, .String, none, false, false⟩,
    ⟨c!"Configuration-Token", 78, .String, none, false, false⟩,
    ⟨c!"EAP-Message", 79, .Octets, none, true, false⟩,
    ⟨c!"Message-Authenticator", 80, .Octets, none, false, false⟩,
    ⟨c!"ARAP-Challenge-Response", 84, .Octets, some 8, false, false⟩,
    ⟨c!"Acct-Interim-Interval", 85, .Integer, none, false, false⟩,
    ⟨c!"NAS-Port-Id", 87, .String, none, false, false⟩,
    ⟨c!"Framed-Pool", 88, .String, none, false, false⟩]
  values := [(c!"ARAP-Zone-Access", [
      ⟨c!"Default-Zone", 1⟩,
      ⟨c!"Zone-Filter-Inclusive", 2⟩,
      ⟨c!"Zone-Filter-Exclusive", 4⟩]),
    (c!"Prompt", [
      ⟨c!"No-Echo", 0⟩,
      ⟨c!"Echo", 1⟩])]

/-- The contents of dicts/dictionary.rfc3162. -/
noncomputable def rfc3162Table : Dict where
  attributes := [
    ⟨c!"NAS-IPV6-Address", 95, .Ipv6Addr, none, false, false⟩,
    ⟨c!"Framed-Interface-Id", 96, .IfId, none, false, false⟩,
    ⟨c!"Framed-IPV6-Prefix", 97, .Ipv6Prefix, none, false, false⟩,
    ⟨c!"Login-IPV6-Host", 98, .Ipv6Addr, none, false, false⟩,
    ⟨c!"Framed-IPV6-Route", 99, .String, none, false, false⟩,
    ⟨c!"Framed-IPV6-Pool", 100, .String, none, false, false⟩]
  values := []

/-- The contents of dicts/dictionary.rfc3576. -/
noncomputable def rfc3576Table : Dict where
  attributes := [
    ⟨c!"Error-Cause", 101, .Integer, none, false, false⟩]
  values := [(c!"Error-Cause", [
      ⟨c!"Residual-Context-Removed", 201⟩,
      ⟨c!"Invalid-EAP-Packet", 202⟩,
      ⟨c!"Unsupported-Attribute", 401⟩,
      ⟨c!"Missing-Attribute", 402⟩,
      ⟨c!"NAS-Identification-Mismatch", 403⟩,
      ⟨c!"Invalid-Request", 404⟩,
      ⟨c!"Unsupported-Service", 405⟩,
      ⟨c!"Unsupported-Extension", 406⟩,
      ⟨c!"Administratively-Prohibited", 501⟩,
      ⟨c!"Proxy-Request-Not-Routable", 502⟩,
      ⟨c!"Session-Context-Not-Found", 503⟩,
      ⟨c!"Session-Context-Not-Removable", 504⟩,
      ⟨c!"Proxy-Processing-Error", 505⟩,
      ⟨c!"Resources-Unavailable", 506⟩,
      ⟨c!"Request-Initiated", 507⟩]),
    (c!"Service-Type", [
      ⟨c!"Authorize-Only", 17⟩])]

/-- The contents of dicts/dictionary.rfc3580. -/
noncomputable def rfc3580Table : Dict where
  attributes := [
    ]
  values := [(c!"Acct-Terminate-Cause", [
      ⟨c!"Supplicant-Restart", 19⟩,
      ⟨c!"Reauthentication-Failure", 20⟩,
      ⟨c!"Port-Reinit", 21⟩,
      ⟨c!"Port-Disabled", 22⟩]),
    (c!"NAS-Port-Type", [
      ⟨c!"Token-Ring", 20⟩,
      ⟨c!"FDDI", 21⟩]),
    (c!"Tunnel-Type", [
      ⟨c!"VLAN", 13⟩])]

/-- The contents of dicts/dictionary.rfc4072. -/
noncomputable def rfc4072Table : Dict where
  attributes := [
    ⟨c!"EAP-Key-Name", 102, .Octets, none, false, false⟩]
  values := []

/-- The contents of dicts/dictionary.rfc4372. -/
noncomputable def rfc4372Table : Dict where
  attributes := [
    ⟨c!"Chargeable-User-Identity", 89, .Octets, none, false, false⟩]
  values := []

/-- The contents of dicts/dictionary.rfc4603. -/
noncomputable def rfc4603Table : Dict where
  attributes := [
    ]
  values := [(c!"NAS-Port-Type", [
      ⟨c!"PPPoA", 30⟩,
      ⟨c!"PPPoEoA", 31⟩,
      ⟨c!"PPPoEoE", 32⟩,
      ⟨c!"PPPoEoVLAN", 33⟩,
      ⟨c!"PPPoEoQinQ", 34⟩])]

/-- The contents of dicts/dictionary.rfc4675. -/
noncomputable def rfc4675Table : Dict where
  attributes := [
    ⟨c!"Egress-VLANID", 56, .Integer, none, false, false⟩,
    ⟨c!"Ingress-Filters", 57, .Integer, none, false, false⟩,
    ⟨c!"Egress-VLAN-Name", 58, .String, none, false, false⟩,
    ⟨c!"User-Priority-Table", 59, .Octets, none, false, false⟩]
  values := [(c!"Ingress-Filters", [
      ⟨c!"Enabled", 1⟩,
      ⟨c!"Disabled", 2⟩])]

/-- The contents of dicts/dictionary.rfc4818. -/
noncomputable def rfc4818Table : Dict where
  attributes := [
    ⟨c!"Delegated-IPV6-Prefix", 123, .Ipv6Prefix, none, false, false⟩]
  values := []

/-- The contents of dicts/dictionary.rfc4849. -/
noncomputable def rfc4849Table : Dict where
  attributes := [
    ⟨c!"NAS-Filter-Rule", 92, .String, none, false, false⟩]
  values := []

/-- The contents of dicts/dictionary.rfc5090. -/
noncomputable def rfc5090Table : Dict where
  attributes := [
    ⟨c!"Digest-Response", 103, .String, none, false, false⟩,
    ⟨c!"Digest-Realm", 104, .String, none, false, false⟩,
    ⟨c!"Digest-Nonce", 105, .String, none, false, false⟩,
    ⟨c!"Digest-Response-Auth", 106, .String, none, false, false⟩,
    ⟨c!"Digest-Nextnonce", 107, .String, none, false, false⟩,
    ⟨c!"Digest-Method", 108, .String, none, false, false⟩,
    ⟨c!"Digest-URI", 109, .String, none, false, false⟩,
    ⟨c!"Digest-Qop", 110, .String, none, false, false⟩,
    ⟨c!"Digest-Algorithm", 111, .String, none, false, false⟩,
    ⟨c!"Digest-Entity-Body-Hash", 112, .String, none, false, false⟩,
    ⟨c!"Digest-CNonce", 113, .String, none, false, false⟩,
    ⟨c!"Digest-Nonce-Count", 114, .String, none, false, false⟩,
    ⟨c!"Digest-Username", 115, .String, none, false, false⟩,
    ⟨c!"Digest-Opaque", 116, .String, none, false, false⟩,
    ⟨c!"Digest-Auth-Param", 117, .String, none, false, false⟩,
    ⟨c!"Digest-AKA-Auts", 118, .String, none, false, false⟩,
    ⟨c!"Digest-Domain", 119, .String, none, false, false⟩,
    ⟨c!"Digest-Stale", 120, .String, none, false, false⟩,
    ⟨c!"Digest-HA1", 121, .String, none, false, false⟩,
    ⟨c!"SIP-AOR", 122, .String, none, false, false⟩]
  values := []

/-- The contents of dicts/dictionary.rfc5176. -/
noncomputable def rfc5176Table : Dict where
  attributes := [
    ]
  values := [(c!"Error-Cause", [
      ⟨c!"Invalid-Attribute-Value", 407⟩,
      ⟨c!"Multiple-Session-Selection-Unsupported", 508⟩])]

/-- The contents of dicts/dictionary.rfc5607. -/
noncomputable def rfc5607Table : Dict where
  attributes := [
    ⟨c!"Framed-Management", 133, .Integer, none, false, false⟩,
    ⟨c!"Management-Transport-Protection", 134, .Integer, none, false, false⟩,
    ⟨c!"Management-Policy-Id", 135, .String, none, false, false⟩,
    ⟨c!"Management-Privilege-Level", 136, .Integer, none, false, false⟩]
  values := [(c!"Framed-Management", [
      ⟨c!"SNMP", 1⟩,
      ⟨c!"Web-Based", 2⟩,
      ⟨c!"Netconf", 3⟩,
      ⟨c!"FTP", 4⟩,
      ⟨c!"TFTP", 5⟩,
      ⟨c!"SFTP", 6⟩,
      ⟨c!"RCP", 7⟩,
      ⟨c!"SCP", 8⟩]),
    (c!"Management-Transport-Protection", [
      ⟨c!"No-Protection", 1⟩,
      ⟨c!"Integrity-Protection", 2⟩,
      ⟨c!"Integrity-Confidentiality-Protection", 3⟩]),
    (c!"Service-Type", [
      ⟨c!"Framed-Management", 18⟩])]

/-- The contents of dicts/dictionary.rfc5904. -/
noncomputable def rfc5904Table : Dict where
  attributes := [
    ⟨c!"PKM-SS-Cert", 137, .Octets, none, true, false⟩,
    ⟨c!"PKM-CA-Cert", 138, .Octets, none, true, false⟩,
    ⟨c!"PKM-Config-Settings", 139, .Octets, none, false, false⟩,
    ⟨c!"PKM-Cryptosuite-List", 140, .Octets, none, false, false⟩,
    ⟨c!"PKM-SAID", 141, .Short, none, false, false⟩,
    ⟨c!"PKM-SA-Descriptor", 142, .Octets, none, false, false⟩,
    ⟨c!"PKM-Auth-Key", 143, .Octets, none, false, false⟩]
  values := []

/-- The contents of dicts/dictionary.rfc6519. -/
noncomputable def rfc6519Table : Dict where
  attributes := [
    ⟨c!"DS-Lite-Tunnel-Name", 144, .String, none, false, false⟩]
  values := []

/-- The contents of dicts/dictionary.rfc6572. -/
noncomputable def rfc6572Table : Dict where
  attributes := [
    ⟨c!"Mobile-Node-Identifier", 145, .Octets, none, false, false⟩,
    ⟨c!"Service-Selection", 146, .String, none, false, false⟩,
    ⟨c!"PMIP6-Home-LMA-IPV6-Address", 147, .Ipv6Addr, none, false, false⟩,
    ⟨c!"PMIP6-Visited-LMA-IPV6-Address", 148, .Ipv6Addr, none, false, false⟩,
    ⟨c!"PMIP6-Home-LMA-IPV4-Address", 149, .IpAddr, none, false, false⟩,
    ⟨c!"PMIP6-Visited-LMA-IPV4-Address", 150, .IpAddr, none, false, false⟩,
    ⟨c!"PMIP6-Home-HN-Prefix", 151, .Ipv6Prefix, none, false, false⟩,
    ⟨c!"PMIP6-Visited-HN-Prefix", 152, .Ipv6Prefix, none, false, false⟩,
    ⟨c!"PMIP6-Home-Interface-ID", 153, .IfId, none, false, false⟩,
    ⟨c!"PMIP6-Visited-Interface-ID", 154, .IfId, none, false, false⟩,
    ⟨c!"PMIP6-Home-IPV4-HoA", 155, .Ipv4Prefix, none, false, false⟩,
    ⟨c!"PMIP6-Visited-IPV4-HoA", 156, .Ipv4Prefix, none, false, false⟩,
    ⟨c!"PMIP6-Home-DHCP4-Server-Address", 157, .IpAddr, none, false, false⟩,
    ⟨c!"PMIP6-Visited-DHCP4-Server-Address", 158, .IpAddr, none, false, false⟩,
    ⟨c!"PMIP6-Home-DHCP6-Server-Address", 159, .Ipv6Addr, none, false, false⟩,
    ⟨c!"PMIP6-Visited-DHCP6-Server-Address", 160, .Ipv6Addr, none, false, false⟩,
    ⟨c!"PMIP6-Home-IPV4-Gateway", 161, .IpAddr, none, false, false⟩,
    ⟨c!"PMIP6-Visited-IPV4-Gateway", 162, .IpAddr, none, false, false⟩]
  values := []

/-- The contents of dicts/dictionary.rfc6677. -/
noncomputable def rfc6677Table : Dict where
  attributes := [
    ⟨c!"EAP-Lower-Layer", 163, .Integer, none, false, false⟩]
  values := [(c!"EAP-Lower-Layer", [
      ⟨c!"Wired-IEEE-802.1X", 1⟩,
      ⟨c!"IEEE-802.1X-No-Preauth", 2⟩,
      ⟨c!"IEEE-802.1X-Preauth", 3⟩,
      ⟨c!"IEEE-802.16e", 4⟩,
      ⟨c!"IKEv2", 5⟩,
      ⟨c!"PPP", 6⟩,
      ⟨c!"PANA-No-Preauth", 7⟩,
      ⟨c!"GSS-API", 8⟩,
      ⟨c!"PANA-Preauth", 9⟩])]

/-- The contents of dicts/dictionary.rfc6911. -/
noncomputable def rfc6911Table : Dict where
  attributes := [
    ⟨c!"Framed-IPV6-Address", 168, .Ipv6Addr, none, false, false⟩,
    ⟨c!"DNS-Server-IPV6-Address", 169, .Ipv6Addr, none, false, false⟩,
    ⟨c!"Route-IPV6-Information", 170, .Ipv6Prefix, none, false, false⟩,
    ⟨c!"Delegated-IPV6-Prefix-Pool", 171, .String, none, false, false⟩,
    ⟨c!"Stateful-IPV6-Address-Pool", 172, .String, none, false, false⟩]
  values := []

/-- The contents of dicts/dictionary.rfc7055. -/
noncomputable def rfc7055Table : Dict where
  attributes := [
    ⟨c!"GSS-Acceptor-Service-Name", 164, .String, none, false, false⟩,
    ⟨c!"GSS-Acceptor-Host-Name", 165, .String, none, false, false⟩,
    ⟨c!"GSS-Acceptor-Service-Specifics", 166, .String, none, false, false⟩,
    ⟨c!"GSS-Acceptor-Realm-Name", 167, .String, none, false, false⟩]
  values := []

/-- The contents of dicts/dictionary.rfc7155. -/
noncomputable def rfc7155Table : Dict where
  attributes := [
    ⟨c!"Originating-Line-Info", 94, .Octets, some 2, false, false⟩]
  values := []

end Radius.Gen.Shipped
