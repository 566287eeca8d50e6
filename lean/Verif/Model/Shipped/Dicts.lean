import Verif.Model.Text
/-! # The shipped dictionaries

Written by tools/embed.py. -/
namespace Radius.Gen.Shipped

noncomputable def rfc2865Dict_0 : List Str := [
  c!"# -*- text -*-",
  c!"# Copyright (C) 2020 The FreeRADIUS Server project and contributors",
  c!"# This work is licensed under CC-BY version 4.0 https://creativecommons.org/licenses/by/4.0",
  c!"# Version $Id$",
  c!"#",
  c!"#    Attributes and values defined in RFC 2865.",
  c!"#    http://www.ietf.org/rfc/rfc2865.txt",
  c!"#",
  c!"#    $Id$",
  c!"#",
  c!"ATTRIBUTE    User-Name                1    string",
  c!"ATTRIBUTE    User-Password                2    string    encrypt=1",
  c!"ATTRIBUTE    CHAP-Password                3    octets",
  c!"ATTRIBUTE    NAS-IP-Address                4    ipaddr",
  c!"ATTRIBUTE    NAS-Port                5    integer",
  c!"ATTRIBUTE    Service-Type                6    integer",
  c!"ATTRIBUTE    Framed-Protocol                7    integer",
  c!"ATTRIBUTE    Framed-IP-Address            8    ipaddr",
  c!"ATTRIBUTE    Framed-IP-Netmask            9    ipaddr",
  c!"ATTRIBUTE    Framed-Routing                10    integer",
  c!"ATTRIBUTE    Filter-Id                11    string",
  c!"ATTRIBUTE    Framed-MTU                12    integer",
  c!"ATTRIBUTE    Framed-Compression            13    integer",
  c!"ATTRIBUTE    Login-IP-Host                14    ipaddr",
  c!"ATTRIBUTE    Login-Service                15    integer",
  c!"ATTRIBUTE    Login-TCP-Port                16    integer",
  c!"# Attribute 17 is undefined",
  c!"ATTRIBUTE    Reply-Message                18    string",
  c!"ATTRIBUTE    Callback-Number                19    string",
  c!"ATTRIBUTE    Callback-Id                20    string",
  c!"# Attribute 21 is undefined",
  c!"ATTRIBUTE    Framed-Route                22    string",
  c!"ATTRIBUTE    Framed-IPX-Network            23    ipaddr",
  c!"ATTRIBUTE    State                    24    octets",
  c!"ATTRIBUTE    Class                    25    octets",
  c!"ATTRIBUTE    Vendor-Specific                26    vsa",
  c!"ATTRIBUTE    Session-Timeout                27    integer",
  c!"ATTRIBUTE    Idle-Timeout                28    integer",
  c!"ATTRIBUTE    Termination-Action            29    integer",
  c!"ATTRIBUTE    Called-Station-Id            30    string",
  c!"ATTRIBUTE    Calling-Station-Id            31    string",
  c!"ATTRIBUTE    NAS-Identifier                32    string",
  c!"ATTRIBUTE    Proxy-State                33    octets",
  c!"ATTRIBUTE    Login-LAT-Service            34    string",
  c!"ATTRIBUTE    Login-LAT-Node                35    string",
  c!"ATTRIBUTE    Login-LAT-Group                36    octets",
  c!"ATTRIBUTE    Framed-AppleTalk-Link            37    integer",
  c!"ATTRIBUTE    Framed-AppleTalk-Network        38    integer",
  c!"ATTRIBUTE    Framed-AppleTalk-Zone            39    string",
  c!"",
  c!"ATTRIBUTE    CHAP-Challenge                60    octets",
  c!"ATTRIBUTE    NAS-Port-Type                61    integer",
  c!"ATTRIBUTE    Port-Limit                62    integer",
  c!"ATTRIBUTE    Login-LAT-Port                63    string",
  c!"",
  c!"#",
  c!"#    Integer Translations",
  c!"#",
  c!"",
  c!"#    Service types"]

noncomputable def rfc2865Dict_1 : List Str := [
  c!"",
  c!"VALUE    Service-Type            Login-User        1",
  c!"VALUE    Service-Type            Framed-User        2",
  c!"VALUE    Service-Type            Callback-Login-User    3",
  c!"VALUE    Service-Type            Callback-Framed-User    4",
  c!"VALUE    Service-Type            Outbound-User        5",
  c!"VALUE    Service-Type            Administrative-User    6",
  c!"VALUE    Service-Type            NAS-Prompt-User        7",
  c!"VALUE    Service-Type            Authenticate-Only    8",
  c!"VALUE    Service-Type            Callback-NAS-Prompt    9",
  c!"VALUE    Service-Type            Call-Check        10",
  c!"VALUE    Service-Type            Callback-Administrative    11",
  c!"",
  c!"#    Framed Protocols",
  c!"",
  c!"VALUE    Framed-Protocol            PPP            1",
  c!"VALUE    Framed-Protocol            SLIP            2",
  c!"VALUE    Framed-Protocol            ARAP            3",
  c!"VALUE    Framed-Protocol            Gandalf-SLML        4",
  c!"VALUE    Framed-Protocol            Xylogics-IPX-SLIP    5",
  c!"VALUE    Framed-Protocol            X.75-Synchronous    6",
  c!"",
  c!"#    Framed Routing Values",
  c!"",
  c!"VALUE    Framed-Routing            None            0",
  c!"VALUE    Framed-Routing            Broadcast        1",
  c!"VALUE    Framed-Routing            Listen            2",
  c!"VALUE    Framed-Routing            Broadcast-Listen    3",
  c!"",
  c!"#    Framed Compression Types",
  c!"",
  c!"VALUE    Framed-Compression        None            0",
  c!"VALUE    Framed-Compression        Van-Jacobson-TCP-IP    1",
  c!"VALUE    Framed-Compression        IPX-Header-Compression    2",
  c!"VALUE    Framed-Compression        Stac-LZS        3",
  c!"",
  c!"#    Login Services",
  c!"",
  c!"VALUE    Login-Service            Telnet            0",
  c!"VALUE    Login-Service            Rlogin            1",
  c!"VALUE    Login-Service            TCP-Clear        2",
  c!"VALUE    Login-Service            PortMaster        3",
  c!"VALUE    Login-Service            LAT            4",
  c!"VALUE    Login-Service            X25-PAD            5",
  c!"VALUE    Login-Service            X25-T3POS        6",
  c!"VALUE    Login-Service            TCP-Clear-Quiet        8",
  c!"",
  c!"#    Login-TCP-Port        (see /etc/services for more examples)",
  c!"",
  c!"VALUE    Login-TCP-Port            Telnet            23",
  c!"VALUE    Login-TCP-Port            Rlogin            513",
  c!"VALUE    Login-TCP-Port            Rsh            514",
  c!"",
  c!"#    Termination Options",
  c!"",
  c!"VALUE    Termination-Action        Default            0",
  c!"VALUE    Termination-Action        RADIUS-Request        1",
  c!"",
  c!"#    NAS Port Types",
  c!""]

noncomputable def rfc2865Dict_2 : List Str := [
  c!"VALUE    NAS-Port-Type            Async            0",
  c!"VALUE    NAS-Port-Type            Sync            1",
  c!"VALUE    NAS-Port-Type            ISDN            2",
  c!"VALUE    NAS-Port-Type            ISDN-V120        3",
  c!"VALUE    NAS-Port-Type            ISDN-V110        4",
  c!"VALUE    NAS-Port-Type            Virtual            5",
  c!"VALUE    NAS-Port-Type            PIAFS            6",
  c!"VALUE    NAS-Port-Type            HDLC-Clear-Channel    7",
  c!"VALUE    NAS-Port-Type            X.25            8",
  c!"VALUE    NAS-Port-Type            X.75            9",
  c!"VALUE    NAS-Port-Type            G.3-Fax            10",
  c!"VALUE    NAS-Port-Type            SDSL            11",
  c!"VALUE    NAS-Port-Type            ADSL-CAP        12",
  c!"VALUE    NAS-Port-Type            ADSL-DMT        13",
  c!"VALUE    NAS-Port-Type            IDSL            14",
  c!"VALUE    NAS-Port-Type            Ethernet        15",
  c!"VALUE    NAS-Port-Type            xDSL            16",
  c!"VALUE    NAS-Port-Type            Cable            17",
  c!"VALUE    NAS-Port-Type            Wireless-Other        18",
  c!"VALUE    NAS-Port-Type            Wireless-802.11        19"]

/-- The lines of dicts/dictionary.rfc2865 (1-140). -/
noncomputable def rfc2865Dict : List Str :=
  rfc2865Dict_0 ++ rfc2865Dict_1 ++ rfc2865Dict_2

noncomputable def rfc2866Dict_0 : List Str := [
  c!"# -*- text -*-",
  c!"# Copyright (C) 2020 The FreeRADIUS Server project and contributors",
  c!"# This work is licensed under CC-BY version 4.0 https://creativecommons.org/licenses/by/4.0",
  c!"# Version $Id$",
  c!"#",
  c!"#    Attributes and values defined in RFC 2866.",
  c!"#    http://www.ietf.org/rfc/rfc2866.txt",
  c!"#",
  c!"#    $Id$",
  c!"#",
  c!"ATTRIBUTE    Acct-Status-Type            40    integer",
  c!"ATTRIBUTE    Acct-Delay-Time                41    integer",
  c!"ATTRIBUTE    Acct-Input-Octets            42    integer",
  c!"ATTRIBUTE    Acct-Output-Octets            43    integer",
  c!"ATTRIBUTE    Acct-Session-Id                44    string",
  c!"ATTRIBUTE    Acct-Authentic                45    integer",
  c!"ATTRIBUTE    Acct-Session-Time            46    integer",
  c!"ATTRIBUTE    Acct-Input-Packets            47    integer",
  c!"ATTRIBUTE    Acct-Output-Packets            48    integer",
  c!"ATTRIBUTE    Acct-Terminate-Cause            49    integer",
  c!"ATTRIBUTE    Acct-Multi-Session-Id            50    string",
  c!"ATTRIBUTE    Acct-Link-Count                51    integer",
  c!"",
  c!"#    Accounting Status Types",
  c!"",
  c!"VALUE    Acct-Status-Type        Start            1",
  c!"VALUE    Acct-Status-Type        Stop            2",
  c!"VALUE    Acct-Status-Type        Alive            3   # dup",
  c!"VALUE    Acct-Status-Type        Interim-Update        3",
  c!"VALUE    Acct-Status-Type        Accounting-On        7",
  c!"VALUE    Acct-Status-Type        Accounting-Off        8",
  c!"VALUE    Acct-Status-Type        Failed            15",
  c!"",
  c!"#    Authentication Types",
  c!"",
  c!"VALUE    Acct-Authentic            RADIUS            1",
  c!"VALUE    Acct-Authentic            Local            2",
  c!"VALUE    Acct-Authentic            Remote            3",
  c!"VALUE    Acct-Authentic            Diameter        4",
  c!"",
  c!"#    Acct Terminate Causes",
  c!"",
  c!"VALUE    Acct-Terminate-Cause        User-Request        1",
  c!"VALUE    Acct-Terminate-Cause        Lost-Carrier        2",
  c!"VALUE    Acct-Terminate-Cause        Lost-Service        3",
  c!"VALUE    Acct-Terminate-Cause        Idle-Timeout        4",
  c!"VALUE    Acct-Terminate-Cause        Session-Timeout        5",
  c!"VALUE    Acct-Terminate-Cause        Admin-Reset        6",
  c!"VALUE    Acct-Terminate-Cause        Admin-Reboot        7",
  c!"VALUE    Acct-Terminate-Cause        Port-Error        8",
  c!"VALUE    Acct-Terminate-Cause        NAS-Error        9",
  c!"VALUE    Acct-Terminate-Cause        NAS-Request        10",
  c!"VALUE    Acct-Terminate-Cause        NAS-Reboot        11",
  c!"VALUE    Acct-Terminate-Cause        Port-Unneeded        12",
  c!"VALUE    Acct-Terminate-Cause        Port-Preempted        13",
  c!"VALUE    Acct-Terminate-Cause        Port-Suspended        14",
  c!"VALUE    Acct-Terminate-Cause        Service-Unavailable    15",
  c!"VALUE    Acct-Terminate-Cause        Callback        16",
  c!"VALUE    Acct-Terminate-Cause        User-Error        17",
  c!"VALUE    Acct-Terminate-Cause        Host-Request        18"]

/-- The lines of dicts/dictionary.rfc2866 (1-60). -/
noncomputable def rfc2866Dict : List Str :=
  rfc2866Dict_0

noncomputable def rfc2867Dict_0 : List Str := [
  c!"# -*- text -*-",
  c!"# Copyright (C) 2020 The FreeRADIUS Server project and contributors",
  c!"# This work is licensed under CC-BY version 4.0 https://creativecommons.org/licenses/by/4.0",
  c!"# Version $Id$",
  c!"#",
  c!"#    Attributes and values defined in RFC 2867.",
  c!"#    http://www.ietf.org/rfc/rfc2867.txt",
  c!"#",
  c!"#    $Id$",
  c!"#",
  c!"ATTRIBUTE    Acct-Tunnel-Connection            68    string",
  c!"ATTRIBUTE    Acct-Tunnel-Packets-Lost        86    integer",
  c!"",
  c!"VALUE    Acct-Status-Type        Tunnel-Start        9",
  c!"VALUE    Acct-Status-Type        Tunnel-Stop        10",
  c!"VALUE    Acct-Status-Type        Tunnel-Reject        11",
  c!"VALUE    Acct-Status-Type        Tunnel-Link-Start    12",
  c!"VALUE    Acct-Status-Type        Tunnel-Link-Stop    13",
  c!"VALUE    Acct-Status-Type        Tunnel-Link-Reject    14"]

/-- The lines of dicts/dictionary.rfc2867 (1-19). -/
noncomputable def rfc2867Dict : List Str :=
  rfc2867Dict_0

noncomputable def rfc2868Dict_0 : List Str := [
  c!"# -*- text -*-",
  c!"# Copyright (C) 2020 The FreeRADIUS Server project and contributors",
  c!"# This work is licensed under CC-BY version 4.0 https://creativecommons.org/licenses/by/4.0",
  c!"# Version $Id$",
  c!"#",
  c!"#    Attributes and values defined in RFC 2868.",
  c!"#    http://www.ietf.org/rfc/rfc2868.txt",
  c!"#",
  c!"#    $Id$",
  c!"#",
  c!"ATTRIBUTE    Tunnel-Type                64    integer    has_tag",
  c!"ATTRIBUTE    Tunnel-Medium-Type            65    integer    has_tag",
  c!"ATTRIBUTE    Tunnel-Client-Endpoint            66    string    has_tag",
  c!"ATTRIBUTE    Tunnel-Server-Endpoint            67    string    has_tag",
  c!"",
  c!"ATTRIBUTE    Tunnel-Password                69    string    has_tag,encrypt=2",
  c!"",
  c!"ATTRIBUTE    Tunnel-Private-Group-Id            81    string    has_tag",
  c!"ATTRIBUTE    Tunnel-Assignment-Id            82    string    has_tag",
  c!"ATTRIBUTE    Tunnel-Preference            83    integer    has_tag",
  c!"",
  c!"ATTRIBUTE    Tunnel-Client-Auth-Id            90    string    has_tag",
  c!"ATTRIBUTE    Tunnel-Server-Auth-Id            91    string    has_tag",
  c!"",
  c!"#    Tunnel Type",
  c!"",
  c!"VALUE    Tunnel-Type            PPTP            1",
  c!"VALUE    Tunnel-Type            L2F            2",
  c!"VALUE    Tunnel-Type            L2TP            3",
  c!"VALUE    Tunnel-Type            ATMP            4",
  c!"VALUE    Tunnel-Type            VTP            5",
  c!"VALUE    Tunnel-Type            AH            6",
  c!"VALUE    Tunnel-Type            IP            7",
  c!"VALUE    Tunnel-Type            MIN-IP            8",
  c!"VALUE    Tunnel-Type            ESP            9",
  c!"VALUE    Tunnel-Type            GRE            10",
  c!"VALUE    Tunnel-Type            DVS            11",
  c!"VALUE    Tunnel-Type            IP-in-IP        12",
  c!"",
  c!"#    Tunnel Medium Type",
  c!"",
  c!"VALUE    Tunnel-Medium-Type        IP            1",
  c!"VALUE    Tunnel-Medium-Type        IPv4            1",
  c!"VALUE    Tunnel-Medium-Type        IPv6            2",
  c!"VALUE    Tunnel-Medium-Type        NSAP            3",
  c!"VALUE    Tunnel-Medium-Type        HDLC            4",
  c!"VALUE    Tunnel-Medium-Type        BBN-1822        5",
  c!"VALUE    Tunnel-Medium-Type        IEEE-802        6",
  c!"VALUE    Tunnel-Medium-Type        E.163            7",
  c!"VALUE    Tunnel-Medium-Type        E.164            8",
  c!"VALUE    Tunnel-Medium-Type        F.69            9",
  c!"VALUE    Tunnel-Medium-Type        X.121            10",
  c!"VALUE    Tunnel-Medium-Type        IPX            11",
  c!"VALUE    Tunnel-Medium-Type        Appletalk        12",
  c!"VALUE    Tunnel-Medium-Type        DecNet-IV        13",
  c!"VALUE    Tunnel-Medium-Type        Banyan-Vines        14",
  c!"VALUE    Tunnel-Medium-Type        E.164-NSAP        15"]

/-- The lines of dicts/dictionary.rfc2868 (1-57). -/
noncomputable def rfc2868Dict : List Str :=
  rfc2868Dict_0

noncomputable def rfc2869Dict_0 : List Str := [
  c!"# -*- text -*-",
  c!"# Copyright (C) 2020 The FreeRADIUS Server project and contributors",
  c!"# This work is licensed under CC-BY version 4.0 https://creativecommons.org/licenses/by/4.0",
  c!"# Version $Id$",
  c!"#",
  c!"#    Attributes and values defined in RFC 2869.",
  c!"#    http://www.ietf.org/rfc/rfc2869.txt",
  c!"#",
  c!"#    $Id$",
  c!"#",
  c!"ATTRIBUTE    Acct-Input-Gigawords            52    integer",
  c!"ATTRIBUTE    Acct-Output-Gigawords            53    integer",
  c!"",
  c!"ATTRIBUTE    Event-Timestamp                55    date",
  c!"",
  c!"ATTRIBUTE    ARAP-Password                70    octets[16]",
  c!"ATTRIBUTE    ARAP-Features                71    octets[14]",
  c!"ATTRIBUTE    ARAP-Zone-Access            72    integer",
  c!"ATTRIBUTE    ARAP-Security                73    integer",
  c!"ATTRIBUTE    ARAP-Security-Data            74    string",
  c!"ATTRIBUTE    Password-Retry                75    integer",
  c!"ATTRIBUTE    Prompt                    76    integer",
  c!"ATTRIBUTE    Connect-Info                77    string",
  c!"ATTRIBUTE    Configuration-Token            78    string",
  c!"ATTRIBUTE    EAP-Message                79    octets    concat",
  c!"ATTRIBUTE    Message-Authenticator            80    octets",
  c!"",
  c!"ATTRIBUTE    ARAP-Challenge-Response            84    octets[8]",
  c!"ATTRIBUTE    Acct-Interim-Interval            85    integer",
  c!"# 86: RFC 2867",
  c!"ATTRIBUTE    NAS-Port-Id                87    string",
  c!"ATTRIBUTE    Framed-Pool                88    string",
  c!"",
  c!"#    ARAP Zone Access",
  c!"",
  c!"VALUE    ARAP-Zone-Access        Default-Zone        1",
  c!"VALUE    ARAP-Zone-Access        Zone-Filter-Inclusive    2",
  c!"VALUE    ARAP-Zone-Access        Zone-Filter-Exclusive    4",
  c!"",
  c!"#    Prompt",
  c!"VALUE    Prompt                No-Echo            0",
  c!"VALUE    Prompt                Echo            1"]

/-- The lines of dicts/dictionary.rfc2869 (1-42). -/
noncomputable def rfc2869Dict : List Str :=
  rfc2869Dict_0

noncomputable def rfc3162Dict_0 : List Str := [
  c!"# -*- text -*-",
  c!"# Copyright (C) 2020 The FreeRADIUS Server project and contributors",
  c!"# This work is licensed under CC-BY version 4.0 https://creativecommons.org/licenses/by/4.0",
  c!"# Version $Id$",
  c!"#",
  c!"#    Attributes and values defined in RFC 3162.",
  c!"#    http://www.ietf.org/rfc/rfc3162.txt",
  c!"#",
  c!"#    $Id$",
  c!"#",
  c!"ATTRIBUTE    NAS-IPV6-Address            95    ipv6addr",
  c!"ATTRIBUTE    Framed-Interface-Id            96    ifid",
  c!"ATTRIBUTE    Framed-IPV6-Prefix            97    ipv6prefix",
  c!"ATTRIBUTE    Login-IPV6-Host                98    ipv6addr",
  c!"ATTRIBUTE    Framed-IPV6-Route            99    string",
  c!"ATTRIBUTE    Framed-IPV6-Pool            100    string"]

/-- The lines of dicts/dictionary.rfc3162 (1-16). -/
noncomputable def rfc3162Dict : List Str :=
  rfc3162Dict_0

noncomputable def rfc3576Dict_0 : List Str := [
  c!"# -*- text -*-",
  c!"# Copyright (C) 2020 The FreeRADIUS Server project and contributors",
  c!"# This work is licensed under CC-BY version 4.0 https://creativecommons.org/licenses/by/4.0",
  c!"# Version $Id$",
  c!"#",
  c!"#    Attributes and values defined in RFC 3576.",
  c!"#    http://www.ietf.org/rfc/rfc3576.txt",
  c!"#",
  c!"#    $Id$",
  c!"#",
  c!"ATTRIBUTE    Error-Cause                101    integer",
  c!"",
  c!"#    Service Types",
  c!"",
  c!"VALUE    Service-Type            Authorize-Only        17",
  c!"",
  c!"#    Error causes",
  c!"",
  c!"VALUE    Error-Cause            Residual-Context-Removed    201",
  c!"VALUE    Error-Cause            Invalid-EAP-Packet    202",
  c!"VALUE    Error-Cause            Unsupported-Attribute    401",
  c!"VALUE    Error-Cause            Missing-Attribute    402",
  c!"VALUE    Error-Cause            NAS-Identification-Mismatch    403",
  c!"VALUE    Error-Cause            Invalid-Request        404",
  c!"VALUE    Error-Cause            Unsupported-Service    405",
  c!"VALUE    Error-Cause            Unsupported-Extension    406",
  c!"VALUE    Error-Cause            Administratively-Prohibited    501",
  c!"VALUE    Error-Cause            Proxy-Request-Not-Routable    502",
  c!"VALUE    Error-Cause            Session-Context-Not-Found    503",
  c!"VALUE    Error-Cause            Session-Context-Not-Removable    504",
  c!"VALUE    Error-Cause            Proxy-Processing-Error    505",
  c!"VALUE    Error-Cause            Resources-Unavailable    506",
  c!"VALUE    Error-Cause            Request-Initiated    507"]

/-- The lines of dicts/dictionary.rfc3576 (1-33). -/
noncomputable def rfc3576Dict : List Str :=
  rfc3576Dict_0

noncomputable def rfc3580Dict_0 : List Str := [
  c!"# -*- text -*-",
  c!"# Copyright (C) 2020 The FreeRADIUS Server project and contributors",
  c!"# This work is licensed under CC-BY version 4.0 https://creativecommons.org/licenses/by/4.0",
  c!"# Version $Id$",
  c!"#",
  c!"#    Attributes and values defined in RFC 3580.",
  c!"#    http://www.ietf.org/rfc/rfc3580.txt",
  c!"#",
  c!"#    $Id$",
  c!"#",
  c!"VALUE    Acct-Terminate-Cause        Supplicant-Restart    19",
  c!"VALUE    Acct-Terminate-Cause        Reauthentication-Failure    20",
  c!"VALUE    Acct-Terminate-Cause        Port-Reinit        21",
  c!"VALUE    Acct-Terminate-Cause        Port-Disabled        22",
  c!"",
  c!"VALUE    NAS-Port-Type            Token-Ring        20",
  c!"VALUE    NAS-Port-Type            FDDI            21",
  c!"",
  c!"VALUE    Tunnel-Type            VLAN            13"]

/-- The lines of dicts/dictionary.rfc3580 (1-19). -/
noncomputable def rfc3580Dict : List Str :=
  rfc3580Dict_0

noncomputable def rfc4072Dict_0 : List Str := [
  c!"# -*- text -*-",
  c!"# Copyright (C) 2020 The FreeRADIUS Server project and contributors",
  c!"# This work is licensed under CC-BY version 4.0 https://creativecommons.org/licenses/by/4.0",
  c!"# Version $Id$",
  c!"#",
  c!"#    Attributes and values defined in RFC 4072",
  c!"#    http://www.ietf.org/rfc/rfc4072.txt",
  c!"#",
  c!"#    $Id$",
  c!"#",
  c!"",
  c!"ATTRIBUTE    EAP-Key-Name                102    octets"]

/-- The lines of dicts/dictionary.rfc4072 (1-12). -/
noncomputable def rfc4072Dict : List Str :=
  rfc4072Dict_0

noncomputable def rfc4372Dict_0 : List Str := [
  c!"# -*- text -*-",
  c!"# Copyright (C) 2020 The FreeRADIUS Server project and contributors",
  c!"# This work is licensed under CC-BY version 4.0 https://creativecommons.org/licenses/by/4.0",
  c!"# Version $Id$",
  c!"#",
  c!"#    Attributes and values defined in RFC 4372.",
  c!"#    http://www.ietf.org/rfc/rfc4372.txt",
  c!"#",
  c!"#    $Id$",
  c!"#",
  c!"ATTRIBUTE    Chargeable-User-Identity        89    octets"]

/-- The lines of dicts/dictionary.rfc4372 (1-11). -/
noncomputable def rfc4372Dict : List Str :=
  rfc4372Dict_0

noncomputable def rfc4603Dict_0 : List Str := [
  c!"# -*- text -*-",
  c!"# Copyright (C) 2020 The FreeRADIUS Server project and contributors",
  c!"# This work is licensed under CC-BY version 4.0 https://creativecommons.org/licenses/by/4.0",
  c!"# Version $Id$",
  c!"##############################################################################",
  c!"#",
  c!"#    Attributes and values defined in RFC 4603.",
  c!"#    http://www.ietf.org/rfc/rfc4603.txt",
  c!"#",
  c!"#    $Id$",
  c!"#",
  c!"##############################################################################",
  c!"",
  c!"VALUE    NAS-Port-Type            PPPoA            30",
  c!"VALUE    NAS-Port-Type            PPPoEoA            31",
  c!"VALUE    NAS-Port-Type            PPPoEoE            32",
  c!"VALUE    NAS-Port-Type            PPPoEoVLAN        33",
  c!"VALUE    NAS-Port-Type            PPPoEoQinQ        34",
  c!""]

/-- The lines of dicts/dictionary.rfc4603 (1-19). -/
noncomputable def rfc4603Dict : List Str :=
  rfc4603Dict_0

noncomputable def rfc4675Dict_0 : List Str := [
  c!"# -*- text -*-",
  c!"# Copyright (C) 2020 The FreeRADIUS Server project and contributors",
  c!"# This work is licensed under CC-BY version 4.0 https://creativecommons.org/licenses/by/4.0",
  c!"# Version $Id$",
  c!"#",
  c!"#    Attributes and values defined in RFC 4675.",
  c!"#    http://www.ietf.org/rfc/rfc4675.txt",
  c!"#",
  c!"#    $Id$",
  c!"#",
  c!"",
  c!"#",
  c!"#  High byte = '1' (0x31) means the frames are tagged.",
  c!"#  High byte = '2' (0x32) means the frames are untagged.",
  c!"#",
  c!"#  Next 12 bits MUST be zero.",
  c!"#",
  c!"#  Lower 12 bits is the IEEE-802.1Q VLAN VID.",
  c!"#",
  c!"ATTRIBUTE    Egress-VLANID                56    integer",
  c!"ATTRIBUTE    Ingress-Filters                57    integer",
  c!"",
  c!"#",
  c!"#  First byte == '1' (0x31) means that the frames are tagged.",
  c!"#  First byte == '2' (0x32) means that the frames are untagged.",
  c!"#",
  c!"ATTRIBUTE    Egress-VLAN-Name            58    string",
  c!"ATTRIBUTE    User-Priority-Table            59    octets",
  c!"",
  c!"VALUE    Ingress-Filters            Enabled            1",
  c!"VALUE    Ingress-Filters            Disabled        2"]

/-- The lines of dicts/dictionary.rfc4675 (1-31). -/
noncomputable def rfc4675Dict : List Str :=
  rfc4675Dict_0

noncomputable def rfc4818Dict_0 : List Str := [
  c!"# -*- text -*-",
  c!"# Copyright (C) 2020 The FreeRADIUS Server project and contributors",
  c!"# This work is licensed under CC-BY version 4.0 https://creativecommons.org/licenses/by/4.0",
  c!"# Version $Id$",
  c!"##############################################################################",
  c!"#",
  c!"#    Attributes and values defined in RFC 4818.",
  c!"#    http://www.ietf.org/rfc/rfc4818.txt",
  c!"#",
  c!"#    $Id$",
  c!"#",
  c!"##############################################################################",
  c!"",
  c!"ATTRIBUTE    Delegated-IPV6-Prefix            123    ipv6prefix"]

/-- The lines of dicts/dictionary.rfc4818 (1-14). -/
noncomputable def rfc4818Dict : List Str :=
  rfc4818Dict_0

noncomputable def rfc4849Dict_0 : List Str := [
  c!"# -*- text -*-",
  c!"# Copyright (C) 2020 The FreeRADIUS Server project and contributors",
  c!"# This work is licensed under CC-BY version 4.0 https://creativecommons.org/licenses/by/4.0",
  c!"# Version $Id$",
  c!"#",
  c!"#    Attributes and values defined in RFC 4849.",
  c!"#    http://www.ietf.org/rfc/rfc4849.txt",
  c!"#",
  c!"#    $Id$",
  c!"#",
  c!"ATTRIBUTE    NAS-Filter-Rule                92    string"]

/-- The lines of dicts/dictionary.rfc4849 (1-11). -/
noncomputable def rfc4849Dict : List Str :=
  rfc4849Dict_0

noncomputable def rfc5090Dict_0 : List Str := [
  c!"# -*- text -*-",
  c!"# Copyright (C) 2020 The FreeRADIUS Server project and contributors",
  c!"# This work is licensed under CC-BY version 4.0 https://creativecommons.org/licenses/by/4.0",
  c!"# Version $Id$",
  c!"#",
  c!"#    Attributes and values defined in RFC 5090.",
  c!"#    http://www.ietf.org/rfc/rfc5090.txt",
  c!"#",
  c!"#    $Id$",
  c!"#",
  c!"ATTRIBUTE    Digest-Response                103    string",
  c!"ATTRIBUTE    Digest-Realm                104    string",
  c!"ATTRIBUTE    Digest-Nonce                105    string",
  c!"ATTRIBUTE    Digest-Response-Auth            106    string",
  c!"ATTRIBUTE    Digest-Nextnonce            107    string",
  c!"ATTRIBUTE    Digest-Method                108    string",
  c!"ATTRIBUTE    Digest-URI                109    string",
  c!"ATTRIBUTE    Digest-Qop                110    string",
  c!"ATTRIBUTE    Digest-Algorithm            111    string",
  c!"ATTRIBUTE    Digest-Entity-Body-Hash            112    string",
  c!"ATTRIBUTE    Digest-CNonce                113    string",
  c!"ATTRIBUTE    Digest-Nonce-Count            114    string",
  c!"ATTRIBUTE    Digest-Username                115    string",
  c!"ATTRIBUTE    Digest-Opaque                116    string",
  c!"ATTRIBUTE    Digest-Auth-Param            117    string",
  c!"ATTRIBUTE    Digest-AKA-Auts                118    string",
  c!"ATTRIBUTE    Digest-Domain                119    string",
  c!"ATTRIBUTE    Digest-Stale                120    string",
  c!"ATTRIBUTE    Digest-HA1                121    string",
  c!"ATTRIBUTE    SIP-AOR                    122    string"]

/-- The lines of dicts/dictionary.rfc5090 (1-30). -/
noncomputable def rfc5090Dict : List Str :=
  rfc5090Dict_0

noncomputable def rfc5176Dict_0 : List Str := [
  c!"# -*- text -*-",
  c!"# Copyright (C) 2020 The FreeRADIUS Server project and contributors",
  c!"# This work is licensed under CC-BY version 4.0 https://creativecommons.org/licenses/by/4.0",
  c!"# Version $Id$",
  c!"#",
  c!"#    Attributes and values defined in RFC 5176.",
  c!"#    http://www.ietf.org/rfc/rfc5176.txt",
  c!"#",
  c!"#    $Id$",
  c!"#",
  c!"VALUE    Error-Cause            Invalid-Attribute-Value    407",
  c!"VALUE    Error-Cause            Multiple-Session-Selection-Unsupported    508"]

/-- The lines of dicts/dictionary.rfc5176 (1-12). -/
noncomputable def rfc5176Dict : List Str :=
  rfc5176Dict_0

noncomputable def rfc5607Dict_0 : List Str := [
  c!"# -*- text -*-",
  c!"# Copyright (C) 2020 The FreeRADIUS Server project and contributors",
  c!"# This work is licensed under CC-BY version 4.0 https://creativecommons.org/licenses/by/4.0",
  c!"# Version $Id$",
  c!"#",
  c!"#    Attributes and values defined in RFC 5607.",
  c!"#    http://www.ietf.org/rfc/rfc5607.txt",
  c!"#",
  c!"#    $Id$",
  c!"#",
  c!"",
  c!"VALUE    Service-Type            Framed-Management    18",
  c!"",
  c!"ATTRIBUTE    Framed-Management            133    integer",
  c!"",
  c!"VALUE    Framed-Management        SNMP            1",
  c!"VALUE    Framed-Management        Web-Based        2",
  c!"VALUE    Framed-Management        Netconf            3",
  c!"VALUE    Framed-Management        FTP            4",
  c!"VALUE    Framed-Management        TFTP            5",
  c!"VALUE    Framed-Management        SFTP            6",
  c!"VALUE    Framed-Management        RCP            7",
  c!"VALUE    Framed-Management        SCP            8",
  c!"",
  c!"ATTRIBUTE    Management-Transport-Protection        134    integer",
  c!"",
  c!"VALUE    Management-Transport-Protection    No-Protection        1",
  c!"VALUE    Management-Transport-Protection    Integrity-Protection    2",
  c!"VALUE    Management-Transport-Protection    Integrity-Confidentiality-Protection    3",
  c!"",
  c!"ATTRIBUTE    Management-Policy-Id            135    string",
  c!"",
  c!"ATTRIBUTE    Management-Privilege-Level        136    integer"]

/-- The lines of dicts/dictionary.rfc5607 (1-33). -/
noncomputable def rfc5607Dict : List Str :=
  rfc5607Dict_0

noncomputable def rfc5904Dict_0 : List Str := [
  c!"# -*- text -*-",
  c!"# Copyright (C) 2020 The FreeRADIUS Server project and contributors",
  c!"# This work is licensed under CC-BY version 4.0 https://creativecommons.org/licenses/by/4.0",
  c!"# Version $Id$",
  c!"#",
  c!"#    Attributes and values defined in RFC 5904.",
  c!"#    http://www.ietf.org/rfc/rfc5904.txt",
  c!"#",
  c!"#    $Id$",
  c!"#",
  c!"",
  c!"# The next two attributes are continued, like EAP-Message",
  c!"ATTRIBUTE    PKM-SS-Cert                137    octets    concat",
  c!"ATTRIBUTE    PKM-CA-Cert                138    octets    concat",
  c!"",
  c!"# 28 bytes of data, 7 integers",
  c!"ATTRIBUTE    PKM-Config-Settings            139    octets",
  c!"ATTRIBUTE    PKM-Cryptosuite-List            140    octets",
  c!"ATTRIBUTE    PKM-SAID                141    short",
  c!"",
  c!"# 6 bytes of data: SAID, 1 byte of type, 3 of cryptosuite",
  c!"ATTRIBUTE    PKM-SA-Descriptor            142    octets",
  c!"",
  c!"# 133 bytes of data: integer lifetime, 1 byte sequence, 128 bytes of key",
  c!"ATTRIBUTE    PKM-Auth-Key                143    octets"]

/-- The lines of dicts/dictionary.rfc5904 (1-25). -/
noncomputable def rfc5904Dict : List Str :=
  rfc5904Dict_0

noncomputable def rfc6519Dict_0 : List Str := [
  c!"# -*- text -*-",
  c!"# Copyright (C) 2020 The FreeRADIUS Server project and contributors",
  c!"# This work is licensed under CC-BY version 4.0 https://creativecommons.org/licenses/by/4.0",
  c!"# Version $Id$",
  c!"#",
  c!"#    Attributes and values defined in RFC 6519.",
  c!"#    http://www.ietf.org/rfc/rfc6519.txt",
  c!"#",
  c!"#    $Id$",
  c!"#",
  c!"",
  c!"ATTRIBUTE    DS-Lite-Tunnel-Name            144    string"]

/-- The lines of dicts/dictionary.rfc6519 (1-12). -/
noncomputable def rfc6519Dict : List Str :=
  rfc6519Dict_0

noncomputable def rfc6572Dict_0 : List Str := [
  c!"# -*- text -*-",
  c!"# Copyright (C) 2020 The FreeRADIUS Server project and contributors",
  c!"# This work is licensed under CC-BY version 4.0 https://creativecommons.org/licenses/by/4.0",
  c!"# Version $Id$",
  c!"#",
  c!"#    Attributes and values defined in RFC 6572.",
  c!"#    http://www.ietf.org/rfc/rfc6572.txt",
  c!"#",
  c!"#    $Id$",
  c!"#",
  c!"",
  c!"ATTRIBUTE    Mobile-Node-Identifier            145    octets",
  c!"ATTRIBUTE    Service-Selection            146    string",
  c!"ATTRIBUTE    PMIP6-Home-LMA-IPV6-Address        147    ipv6addr",
  c!"ATTRIBUTE    PMIP6-Visited-LMA-IPV6-Address        148    ipv6addr",
  c!"ATTRIBUTE    PMIP6-Home-LMA-IPV4-Address        149    ipaddr",
  c!"ATTRIBUTE    PMIP6-Visited-LMA-IPV4-Address        150    ipaddr",
  c!"ATTRIBUTE    PMIP6-Home-HN-Prefix            151    ipv6prefix",
  c!"ATTRIBUTE    PMIP6-Visited-HN-Prefix            152    ipv6prefix",
  c!"ATTRIBUTE    PMIP6-Home-Interface-ID            153    ifid",
  c!"ATTRIBUTE    PMIP6-Visited-Interface-ID        154    ifid",
  c!"ATTRIBUTE    PMIP6-Home-IPV4-HoA            155    ipv4prefix",
  c!"ATTRIBUTE    PMIP6-Visited-IPV4-HoA            156    ipv4prefix",
  c!"ATTRIBUTE    PMIP6-Home-DHCP4-Server-Address        157    ipaddr",
  c!"ATTRIBUTE    PMIP6-Visited-DHCP4-Server-Address    158    ipaddr",
  c!"ATTRIBUTE    PMIP6-Home-DHCP6-Server-Address        159    ipv6addr",
  c!"ATTRIBUTE    PMIP6-Visited-DHCP6-Server-Address    160    ipv6addr",
  c!"ATTRIBUTE    PMIP6-Home-IPV4-Gateway            161    ipaddr",
  c!"ATTRIBUTE    PMIP6-Visited-IPV4-Gateway        162    ipaddr"]

/-- The lines of dicts/dictionary.rfc6572 (1-29). -/
noncomputable def rfc6572Dict : List Str :=
  rfc6572Dict_0

noncomputable def rfc6677Dict_0 : List Str := [
  c!"# -*- text -*-",
  c!"# Copyright (C) 2020 The FreeRADIUS Server project and contributors",
  c!"# This work is licensed under CC-BY version 4.0 https://creativecommons.org/licenses/by/4.0",
  c!"# Version $Id$",
  c!"#",
  c!"#    Attributes and values defined in RFC 6677",
  c!"#    http://www.ietf.org/rfc/rfc6677.txt",
  c!"#",
  c!"",
  c!"ATTRIBUTE    EAP-Lower-Layer                163    integer",
  c!"",
  c!"VALUE    EAP-Lower-Layer            Wired-IEEE-802.1X    1",
  c!"VALUE    EAP-Lower-Layer            IEEE-802.1X-No-Preauth    2",
  c!"VALUE    EAP-Lower-Layer            IEEE-802.1X-Preauth    3",
  c!"VALUE    EAP-Lower-Layer            IEEE-802.16e        4",
  c!"VALUE    EAP-Lower-Layer            IKEv2            5",
  c!"VALUE    EAP-Lower-Layer            PPP            6",
  c!"VALUE    EAP-Lower-Layer            PANA-No-Preauth        7",
  c!"VALUE    EAP-Lower-Layer            GSS-API            8",
  c!"VALUE    EAP-Lower-Layer            PANA-Preauth        9"]

/-- The lines of dicts/dictionary.rfc6677 (1-20). -/
noncomputable def rfc6677Dict : List Str :=
  rfc6677Dict_0

noncomputable def rfc6911Dict_0 : List Str := [
  c!"# -*- text -*-",
  c!"# Copyright (C) 2020 The FreeRADIUS Server project and contributors",
  c!"# This work is licensed under CC-BY version 4.0 https://creativecommons.org/licenses/by/4.0",
  c!"# Version $Id$",
  c!"#",
  c!"#    Attributes and values defined in RFC 6911",
  c!"#    http://www.ietf.org/rfc/rfc6911.txt",
  c!"#",
  c!"",
  c!"ATTRIBUTE    Framed-IPV6-Address            168    ipv6addr",
  c!"ATTRIBUTE    DNS-Server-IPV6-Address            169    ipv6addr",
  c!"ATTRIBUTE    Route-IPV6-Information            170    ipv6prefix",
  c!"ATTRIBUTE    Delegated-IPV6-Prefix-Pool        171    string",
  c!"ATTRIBUTE    Stateful-IPV6-Address-Pool        172    string"]

/-- The lines of dicts/dictionary.rfc6911 (1-14). -/
noncomputable def rfc6911Dict : List Str :=
  rfc6911Dict_0

noncomputable def rfc7055Dict_0 : List Str := [
  c!"# -*- text -*-",
  c!"# Copyright (C) 2020 The FreeRADIUS Server project and contributors",
  c!"# This work is licensed under CC-BY version 4.0 https://creativecommons.org/licenses/by/4.0",
  c!"# Version $Id$",
  c!"#",
  c!"#        Attributes and values defined in RFC 7055",
  c!"#        http://www.ietf.org/rfc/rfc7055.txt",
  c!"#",
  c!"",
  c!"ATTRIBUTE    GSS-Acceptor-Service-Name        164    string",
  c!"ATTRIBUTE    GSS-Acceptor-Host-Name            165    string",
  c!"ATTRIBUTE    GSS-Acceptor-Service-Specifics        166    string",
  c!"ATTRIBUTE    GSS-Acceptor-Realm-Name            167    string"]

/-- The lines of dicts/dictionary.rfc7055 (1-13). -/
noncomputable def rfc7055Dict : List Str :=
  rfc7055Dict_0

noncomputable def rfc7155Dict_0 : List Str := [
  c!"# -*- text -*-",
  c!"# Copyright (C) 2020 The FreeRADIUS Server project and contributors",
  c!"# This work is licensed under CC-BY version 4.0 https://creativecommons.org/licenses/by/4.0",
  c!"# Version $Id$",
  c!"#",
  c!"#        Attributes and values defined in RFC 7155",
  c!"#        http://www.ietf.org/rfc/rfc7155.txt",
  c!"#",
  c!"",
  c!"# The Value field contains two octets (00 - 99).  ANSI T1.113 and",
  c!"# BELLCORE 394 can be used for additional information about these",
  c!"# values and their use.",
  c!"ATTRIBUTE    Originating-Line-Info            94    octets[2]"]

/-- The lines of dicts/dictionary.rfc7155 (1-13). -/
noncomputable def rfc7155Dict : List Str :=
  rfc7155Dict_0

end Radius.Gen.Shipped
