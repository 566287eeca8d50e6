import Verif.Model.Text
/-! # The shipped modules

Written by tools/embed.py. -/
namespace Radius.Gen.Shipped

noncomputable def rfc2865Module_0 : List Str := [
  c!"// Code generated by machine generator; DO NOT EDIT.",
  c!"",
  c!"//! Utility for rfc2865 packet.",
  c!"//!",
  c!"//! This module handles the packet according to the following definition:",
  c!"//! ```text",
  c!"//! //! # -*- text -*-",
  c!"//! # Copyright (C) 2020 The FreeRADIUS Server project and contributors",
  c!"//! # This work is licensed under CC-BY version 4.0 https://creativecommons.org/licenses/by/4.0",
  c!"//! # Version $Id$",
  c!"//! #",
  c!"//! #    Attributes and values defined in RFC 2865.",
  c!"//! #    http://www.ietf.org/rfc/rfc2865.txt",
  c!"//! #",
  c!"//! #    $Id$",
  c!"//! #",
  c!"//! ATTRIBUTE    User-Name                1    string",
  c!"//! ATTRIBUTE    User-Password                2    string    encrypt=1",
  c!"//! ATTRIBUTE    CHAP-Password                3    octets",
  c!"//! ATTRIBUTE    NAS-IP-Address                4    ipaddr",
  c!"//! ATTRIBUTE    NAS-Port                5    integer",
  c!"//! ATTRIBUTE    Service-Type                6    integer",
  c!"//! ATTRIBUTE    Framed-Protocol                7    integer",
  c!"//! ATTRIBUTE    Framed-IP-Address            8    ipaddr",
  c!"//! ATTRIBUTE    Framed-IP-Netmask            9    ipaddr",
  c!"//! ATTRIBUTE    Framed-Routing                10    integer",
  c!"//! ATTRIBUTE    Filter-Id                11    string",
  c!"//! ATTRIBUTE    Framed-MTU                12    integer",
  c!"//! ATTRIBUTE    Framed-Compression            13    integer",
  c!"//! ATTRIBUTE    Login-IP-Host                14    ipaddr",
  c!"//! ATTRIBUTE    Login-Service                15    integer",
  c!"//! ATTRIBUTE    Login-TCP-Port                16    integer",
  c!"//! # Attribute 17 is undefined",
  c!"//! ATTRIBUTE    Reply-Message                18    string",
  c!"//! ATTRIBUTE    Callback-Number                19    string",
  c!"//! ATTRIBUTE    Callback-Id                20    string",
  c!"//! # Attribute 21 is undefined",
  c!"//! ATTRIBUTE    Framed-Route                22    string",
  c!"//! ATTRIBUTE    Framed-IPX-Network            23    ipaddr",
  c!"//! ATTRIBUTE    State                    24    octets",
  c!"//! ATTRIBUTE    Class                    25    octets",
  c!"//! ATTRIBUTE    Vendor-Specific                26    vsa",
  c!"//! ATTRIBUTE    Session-Timeout                27    integer",
  c!"//! ATTRIBUTE    Idle-Timeout                28    integer",
  c!"//! ATTRIBUTE    Termination-Action            29    integer",
  c!"//! ATTRIBUTE    Called-Station-Id            30    string",
  c!"//! ATTRIBUTE    Calling-Station-Id            31    string",
  c!"//! ATTRIBUTE    NAS-Identifier                32    string",
  c!"//! ATTRIBUTE    Proxy-State                33    octets",
  c!"//! ATTRIBUTE    Login-LAT-Service            34    string",
  c!"//! ATTRIBUTE    Login-LAT-Node                35    string",
  c!"//! ATTRIBUTE    Login-LAT-Group                36    octets",
  c!"//! ATTRIBUTE    Framed-AppleTalk-Link            37    integer",
  c!"//! ATTRIBUTE    Framed-AppleTalk-Network        38    integer",
  c!"//! ATTRIBUTE    Framed-AppleTalk-Zone            39    string",
  c!"//!",
  c!"//! ATTRIBUTE    CHAP-Challenge                60    octets",
  c!"//! ATTRIBUTE    NAS-Port-Type                61    integer",
  c!"//! ATTRIBUTE    Port-Limit                62    integer",
  c!"//! ATTRIBUTE    Login-LAT-Port                63    string"]

noncomputable def rfc2865Module_1 : List Str := [
  c!"//!",
  c!"//! #",
  c!"//! #    Integer Translations",
  c!"//! #",
  c!"//!",
  c!"//! #    Service types",
  c!"//!",
  c!"//! VALUE    Service-Type            Login-User        1",
  c!"//! VALUE    Service-Type            Framed-User        2",
  c!"//! VALUE    Service-Type            Callback-Login-User    3",
  c!"//! VALUE    Service-Type            Callback-Framed-User    4",
  c!"//! VALUE    Service-Type            Outbound-User        5",
  c!"//! VALUE    Service-Type            Administrative-User    6",
  c!"//! VALUE    Service-Type            NAS-Prompt-User        7",
  c!"//! VALUE    Service-Type            Authenticate-Only    8",
  c!"//! VALUE    Service-Type            Callback-NAS-Prompt    9",
  c!"//! VALUE    Service-Type            Call-Check        10",
  c!"//! VALUE    Service-Type            Callback-Administrative    11",
  c!"//!",
  c!"//! #    Framed Protocols",
  c!"//!",
  c!"//! VALUE    Framed-Protocol            PPP            1",
  c!"//! VALUE    Framed-Protocol            SLIP            2",
  c!"//! VALUE    Framed-Protocol            ARAP            3",
  c!"//! VALUE    Framed-Protocol            Gandalf-SLML        4",
  c!"//! VALUE    Framed-Protocol            Xylogics-IPX-SLIP    5",
  c!"//! VALUE    Framed-Protocol            X.75-Synchronous    6",
  c!"//!",
  c!"//! #    Framed Routing Values",
  c!"//!",
  c!"//! VALUE    Framed-Routing            None            0",
  c!"//! VALUE    Framed-Routing            Broadcast        1",
  c!"//! VALUE    Framed-Routing            Listen            2",
  c!"//! VALUE    Framed-Routing            Broadcast-Listen    3",
  c!"//!",
  c!"//! #    Framed Compression Types",
  c!"//!",
  c!"//! VALUE    Framed-Compression        None            0",
  c!"//! VALUE    Framed-Compression        Van-Jacobson-TCP-IP    1",
  c!"//! VALUE    Framed-Compression        IPX-Header-Compression    2",
  c!"//! VALUE    Framed-Compression        Stac-LZS        3",
  c!"//!",
  c!"//! #    Login Services",
  c!"//!",
  c!"//! VALUE    Login-Service            Telnet            0",
  c!"//! VALUE    Login-Service            Rlogin            1",
  c!"//! VALUE    Login-Service            TCP-Clear        2",
  c!"//! VALUE    Login-Service            PortMaster        3",
  c!"//! VALUE    Login-Service            LAT            4",
  c!"//! VALUE    Login-Service            X25-PAD            5",
  c!"//! VALUE    Login-Service            X25-T3POS        6",
  c!"//! VALUE    Login-Service            TCP-Clear-Quiet        8",
  c!"//!",
  c!"//! #    Login-TCP-Port        (see /etc/services for more examples)",
  c!"//!",
  c!"//! VALUE    Login-TCP-Port            Telnet            23",
  c!"//! VALUE    Login-TCP-Port            Rlogin            513",
  c!"//! VALUE    Login-TCP-Port            Rsh            514",
  c!"//!",
  c!"//! #    Termination Options"]

noncomputable def rfc2865Module_2 : List Str := [
  c!"//!",
  c!"//! VALUE    Termination-Action        Default            0",
  c!"//! VALUE    Termination-Action        RADIUS-Request        1",
  c!"//!",
  c!"//! #    NAS Port Types",
  c!"//!",
  c!"//! VALUE    NAS-Port-Type            Async            0",
  c!"//! VALUE    NAS-Port-Type            Sync            1",
  c!"//! VALUE    NAS-Port-Type            ISDN            2",
  c!"//! VALUE    NAS-Port-Type            ISDN-V120        3",
  c!"//! VALUE    NAS-Port-Type            ISDN-V110        4",
  c!"//! VALUE    NAS-Port-Type            Virtual            5",
  c!"//! VALUE    NAS-Port-Type            PIAFS            6",
  c!"//! VALUE    NAS-Port-Type            HDLC-Clear-Channel    7",
  c!"//! VALUE    NAS-Port-Type            X.25            8",
  c!"//! VALUE    NAS-Port-Type            X.75            9",
  c!"//! VALUE    NAS-Port-Type            G.3-Fax            10",
  c!"//! VALUE    NAS-Port-Type            SDSL            11",
  c!"//! VALUE    NAS-Port-Type            ADSL-CAP        12",
  c!"//! VALUE    NAS-Port-Type            ADSL-DMT        13",
  c!"//! VALUE    NAS-Port-Type            IDSL            14",
  c!"//! VALUE    NAS-Port-Type            Ethernet        15",
  c!"//! VALUE    NAS-Port-Type            xDSL            16",
  c!"//! VALUE    NAS-Port-Type            Cable            17",
  c!"//! VALUE    NAS-Port-Type            Wireless-Other        18",
  c!"//! VALUE    NAS-Port-Type            Wireless-802.11        19",
  c!"//! ```",
  c!"",
  c!"use std::net::Ipv4Addr;",
  c!"",
  c!"use crate::core::avp::{AVPError, AVPType, AVP};",
  c!"use crate::core::packet::Packet;",
  c!"use crate::core::vsa::VSA;",
  c!"",
  c!"pub const USER_NAME_TYPE: AVPType = 1;",
  c!"/// Delete all of `user_name` values from a packet.",
  c!"pub fn delete_user_name(packet: &mut Packet) {",
  c!"    packet.delete(USER_NAME_TYPE);",
  c!"}",
  c!"/// Add `user_name` string value to a packet.",
  c!"pub fn add_user_name(packet: &mut Packet, value: &str) {",
  c!"    packet.add(AVP::from_string(USER_NAME_TYPE, value));",
  c!"}",
  c!"/// Lookup a `user_name` string value from a packet.",
  c!"///",
  c!"/// It returns the first looked up value. If there is no associated value with `user_name`, it returns `None`.",
  c!"pub fn lookup_user_name(packet: &Packet) -> Option<Result<String, AVPError>> {",
  c!"    packet.lookup(USER_NAME_TYPE).map(|v| v.encode_string())",
  c!"}",
  c!"/// Lookup all of the `user_name` string value from a packet.",
  c!"pub fn lookup_all_user_name(packet: &Packet) -> Result<Vec<String>, AVPError> {",
  c!"    let mut vec = Vec::new();",
  c!"    for avp in packet.lookup_all(USER_NAME_TYPE) {",
  c!"        vec.push(avp.encode_string()?)",
  c!"    }",
  c!"    Ok(vec)",
  c!"}",
  c!"",
  c!"pub const USER_PASSWORD_TYPE: AVPType = 2;",
  c!"/// Delete all of `user_password` values from a packet."]

noncomputable def rfc2865Module_3 : List Str := [
  c!"pub fn delete_user_password(packet: &mut Packet) {",
  c!"    packet.delete(USER_PASSWORD_TYPE);",
  c!"}",
  c!"/// Add `user_password` user-password value to a packet.",
  c!"pub fn add_user_password(packet: &mut Packet, value: &[u8]) -> Result<(), AVPError> {",
  c!"    packet.add(AVP::from_user_password(",
  c!"        USER_PASSWORD_TYPE,",
  c!"        value,",
  c!"        packet.get_secret(),",
  c!"        packet.get_authenticator(),",
  c!"    )?);",
  c!"    Ok(())",
  c!"}",
  c!"/// Lookup a `user_password` user-password value from a packet.",
  c!"///",
  c!"/// It returns the first looked up value. If there is no associated value with `user_password`, it returns `None`.",
  c!"pub fn lookup_user_password(packet: &Packet) -> Option<Result<Vec<u8>, AVPError>> {",
  c!"    packet",
  c!"        .lookup(USER_PASSWORD_TYPE)",
  c!"        .map(|v| v.encode_user_password(packet.get_secret(), packet.get_authenticator()))",
  c!"}",
  c!"/// Lookup all of the `user_password` user-password value from a packet.",
  c!"pub fn lookup_all_user_password(packet: &Packet) -> Result<Vec<Vec<u8>>, AVPError> {",
  c!"    let mut vec = Vec::new();",
  c!"    for avp in packet.lookup_all(USER_PASSWORD_TYPE) {",
  c!"        vec.push(avp.encode_user_password(packet.get_secret(), packet.get_authenticator())?)",
  c!"    }",
  c!"    Ok(vec)",
  c!"}",
  c!"",
  c!"pub const CHAP_PASSWORD_TYPE: AVPType = 3;",
  c!"/// Delete all of `chap_password` values from a packet.",
  c!"pub fn delete_chap_password(packet: &mut Packet) {",
  c!"    packet.delete(CHAP_PASSWORD_TYPE);",
  c!"}",
  c!"/// Add `chap_password` octets value to a packet.",
  c!"pub fn add_chap_password(packet: &mut Packet, value: &[u8]) {",
  c!"    packet.add(AVP::from_bytes(CHAP_PASSWORD_TYPE, value));",
  c!"}",
  c!"/// Lookup a `chap_password` octets value from a packet.",
  c!"///",
  c!"/// It returns the first looked up value. If there is no associated value with `chap_password`, it returns `None`.",
  c!"pub fn lookup_chap_password(packet: &Packet) -> Option<Vec<u8>> {",
  c!"    packet.lookup(CHAP_PASSWORD_TYPE).map(|v| v.encode_bytes())",
  c!"}",
  c!"/// Lookup all of the `chap_password` octets value from a packet.",
  c!"pub fn lookup_all_chap_password(packet: &Packet) -> Vec<Vec<u8>> {",
  c!"    let mut vec = Vec::new();",
  c!"    for avp in packet.lookup_all(CHAP_PASSWORD_TYPE) {",
  c!"        vec.push(avp.encode_bytes())",
  c!"    }",
  c!"    vec",
  c!"}",
  c!"",
  c!"pub const NAS_IP_ADDRESS_TYPE: AVPType = 4;",
  c!"/// Delete all of `nas_ip_address` values from a packet.",
  c!"pub fn delete_nas_ip_address(packet: &mut Packet) {",
  c!"    packet.delete(NAS_IP_ADDRESS_TYPE);",
  c!"}",
  c!"/// Add `nas_ip_address` ipaddr value to a packet."]

noncomputable def rfc2865Module_4 : List Str := [
  c!"pub fn add_nas_ip_address(packet: &mut Packet, value: &Ipv4Addr) {",
  c!"    packet.add(AVP::from_ipv4(NAS_IP_ADDRESS_TYPE, value));",
  c!"}",
  c!"/// Lookup a `nas_ip_address` ipaddr value from a packet.",
  c!"///",
  c!"/// It returns the first looked up value. If there is no associated value with `nas_ip_address`, it returns `None`.",
  c!"pub fn lookup_nas_ip_address(packet: &Packet) -> Option<Result<Ipv4Addr, AVPError>> {",
  c!"    packet.lookup(NAS_IP_ADDRESS_TYPE).map(|v| v.encode_ipv4())",
  c!"}",
  c!"/// Lookup all of the `nas_ip_address` ipaddr value from a packet.",
  c!"pub fn lookup_all_nas_ip_address(packet: &Packet) -> Result<Vec<Ipv4Addr>, AVPError> {",
  c!"    let mut vec = Vec::new();",
  c!"    for avp in packet.lookup_all(NAS_IP_ADDRESS_TYPE) {",
  c!"        vec.push(avp.encode_ipv4()?)",
  c!"    }",
  c!"    Ok(vec)",
  c!"}",
  c!"",
  c!"pub const NAS_PORT_TYPE: AVPType = 5;",
  c!"/// Delete all of `nas_port` values from a packet.",
  c!"pub fn delete_nas_port(packet: &mut Packet) {",
  c!"    packet.delete(NAS_PORT_TYPE);",
  c!"}",
  c!"/// Add `nas_port` integer value to a packet.",
  c!"pub fn add_nas_port(packet: &mut Packet, value: u32) {",
  c!"    packet.add(AVP::from_u32(NAS_PORT_TYPE, value));",
  c!"}",
  c!"/// Lookup a `nas_port` integer value from a packet.",
  c!"///",
  c!"/// It returns the first looked up value. If there is no associated value with `nas_port`, it returns `None`.",
  c!"pub fn lookup_nas_port(packet: &Packet) -> Option<Result<u32, AVPError>> {",
  c!"    packet.lookup(NAS_PORT_TYPE).map(|v| v.encode_u32())",
  c!"}",
  c!"/// Lookup all of the `nas_port` integer value from a packet.",
  c!"pub fn lookup_all_nas_port(packet: &Packet) -> Result<Vec<u32>, AVPError> {",
  c!"    let mut vec = Vec::new();",
  c!"    for avp in packet.lookup_all(NAS_PORT_TYPE) {",
  c!"        vec.push(avp.encode_u32()?)",
  c!"    }",
  c!"    Ok(vec)",
  c!"}",
  c!"",
  c!"pub const SERVICE_TYPE_TYPE: AVPType = 6;",
  c!"/// Delete all of `service_type` values from a packet.",
  c!"pub fn delete_service_type(packet: &mut Packet) {",
  c!"    packet.delete(SERVICE_TYPE_TYPE);",
  c!"}",
  c!"/// Add `service_type` value-defined integer value to a packet.",
  c!"pub fn add_service_type(packet: &mut Packet, value: ServiceType) {",
  c!"    packet.add(AVP::from_u32(SERVICE_TYPE_TYPE, value));",
  c!"}",
  c!"/// Lookup a `service_type` value-defined integer value from a packet.",
  c!"///",
  c!"/// It returns the first looked up value. If there is no associated value with `service_type`, it returns `None`.",
  c!"pub fn lookup_service_type(packet: &Packet) -> Option<Result<ServiceType, AVPError>> {",
  c!"    packet",
  c!"        .lookup(SERVICE_TYPE_TYPE)",
  c!"        .map(|v| Ok(v.encode_u32()? as ServiceType))",
  c!"}",
  c!"/// Lookup all of the `service_type` value-defined integer value from a packet."]

noncomputable def rfc2865Module_5 : List Str := [
  c!"pub fn lookup_all_service_type(packet: &Packet) -> Result<Vec<ServiceType>, AVPError> {",
  c!"    let mut vec = Vec::new();",
  c!"    for avp in packet.lookup_all(SERVICE_TYPE_TYPE) {",
  c!"        vec.push(avp.encode_u32()? as ServiceType)",
  c!"    }",
  c!"    Ok(vec)",
  c!"}",
  c!"",
  c!"pub const FRAMED_PROTOCOL_TYPE: AVPType = 7;",
  c!"/// Delete all of `framed_protocol` values from a packet.",
  c!"pub fn delete_framed_protocol(packet: &mut Packet) {",
  c!"    packet.delete(FRAMED_PROTOCOL_TYPE);",
  c!"}",
  c!"/// Add `framed_protocol` value-defined integer value to a packet.",
  c!"pub fn add_framed_protocol(packet: &mut Packet, value: FramedProtocol) {",
  c!"    packet.add(AVP::from_u32(FRAMED_PROTOCOL_TYPE, value));",
  c!"}",
  c!"/// Lookup a `framed_protocol` value-defined integer value from a packet.",
  c!"///",
  c!"/// It returns the first looked up value. If there is no associated value with `framed_protocol`, it returns `None`.",
  c!"pub fn lookup_framed_protocol(packet: &Packet) -> Option<Result<FramedProtocol, AVPError>> {",
  c!"    packet",
  c!"        .lookup(FRAMED_PROTOCOL_TYPE)",
  c!"        .map(|v| Ok(v.encode_u32()? as FramedProtocol))",
  c!"}",
  c!"/// Lookup all of the `framed_protocol` value-defined integer value from a packet.",
  c!"pub fn lookup_all_framed_protocol(packet: &Packet) -> Result<Vec<FramedProtocol>, AVPError> {",
  c!"    let mut vec = Vec::new();",
  c!"    for avp in packet.lookup_all(FRAMED_PROTOCOL_TYPE) {",
  c!"        vec.push(avp.encode_u32()? as FramedProtocol)",
  c!"    }",
  c!"    Ok(vec)",
  c!"}",
  c!"",
  c!"pub const FRAMED_IP_ADDRESS_TYPE: AVPType = 8;",
  c!"/// Delete all of `framed_ip_address` values from a packet.",
  c!"pub fn delete_framed_ip_address(packet: &mut Packet) {",
  c!"    packet.delete(FRAMED_IP_ADDRESS_TYPE);",
  c!"}",
  c!"/// Add `framed_ip_address` ipaddr value to a packet.",
  c!"pub fn add_framed_ip_address(packet: &mut Packet, value: &Ipv4Addr) {",
  c!"    packet.add(AVP::from_ipv4(FRAMED_IP_ADDRESS_TYPE, value));",
  c!"}",
  c!"/// Lookup a `framed_ip_address` ipaddr value from a packet.",
  c!"///",
  c!"/// It returns the first looked up value. If there is no associated value with `framed_ip_address`, it returns `None`.",
  c!"pub fn lookup_framed_ip_address(packet: &Packet) -> Option<Result<Ipv4Addr, AVPError>> {",
  c!"    packet",
  c!"        .lookup(FRAMED_IP_ADDRESS_TYPE)",
  c!"        .map(|v| v.encode_ipv4())",
  c!"}",
  c!"/// Lookup all of the `framed_ip_address` ipaddr value from a packet.",
  c!"pub fn lookup_all_framed_ip_address(packet: &Packet) -> Result<Vec<Ipv4Addr>, AVPError> {",
  c!"    let mut vec = Vec::new();",
  c!"    for avp in packet.lookup_all(FRAMED_IP_ADDRESS_TYPE) {",
  c!"        vec.push(avp.encode_ipv4()?)",
  c!"    }",
  c!"    Ok(vec)",
  c!"}",
  c!""]

noncomputable def rfc2865Module_6 : List Str := [
  c!"/// Add `vsa_attribute` vsa value to a packet.",
  c!"pub fn add_vsa_attribute(packet: &mut Packet, value: &dyn VSA) {",
  c!"    packet.add(AVP::from_bytes(VENDOR_SPECIFIC_TYPE, &value.message()));",
  c!"}",
  c!"",
  c!"pub const FRAMED_IP_NETMASK_TYPE: AVPType = 9;",
  c!"/// Delete all of `framed_ip_netmask` values from a packet.",
  c!"pub fn delete_framed_ip_netmask(packet: &mut Packet) {",
  c!"    packet.delete(FRAMED_IP_NETMASK_TYPE);",
  c!"}",
  c!"/// Add `framed_ip_netmask` ipaddr value to a packet.",
  c!"pub fn add_framed_ip_netmask(packet: &mut Packet, value: &Ipv4Addr) {",
  c!"    packet.add(AVP::from_ipv4(FRAMED_IP_NETMASK_TYPE, value));",
  c!"}",
  c!"/// Lookup a `framed_ip_netmask` ipaddr value from a packet.",
  c!"///",
  c!"/// It returns the first looked up value. If there is no associated value with `framed_ip_netmask`, it returns `None`.",
  c!"pub fn lookup_framed_ip_netmask(packet: &Packet) -> Option<Result<Ipv4Addr, AVPError>> {",
  c!"    packet",
  c!"        .lookup(FRAMED_IP_NETMASK_TYPE)",
  c!"        .map(|v| v.encode_ipv4())",
  c!"}",
  c!"/// Lookup all of the `framed_ip_netmask` ipaddr value from a packet.",
  c!"pub fn lookup_all_framed_ip_netmask(packet: &Packet) -> Result<Vec<Ipv4Addr>, AVPError> {",
  c!"    let mut vec = Vec::new();",
  c!"    for avp in packet.lookup_all(FRAMED_IP_NETMASK_TYPE) {",
  c!"        vec.push(avp.encode_ipv4()?)",
  c!"    }",
  c!"    Ok(vec)",
  c!"}",
  c!"",
  c!"pub const FRAMED_ROUTING_TYPE: AVPType = 10;",
  c!"/// Delete all of `framed_routing` values from a packet.",
  c!"pub fn delete_framed_routing(packet: &mut Packet) {",
  c!"    packet.delete(FRAMED_ROUTING_TYPE);",
  c!"}",
  c!"/// Add `framed_routing` value-defined integer value to a packet.",
  c!"pub fn add_framed_routing(packet: &mut Packet, value: FramedRouting) {",
  c!"    packet.add(AVP::from_u32(FRAMED_ROUTING_TYPE, value));",
  c!"}",
  c!"/// Lookup a `framed_routing` value-defined integer value from a packet.",
  c!"///",
  c!"/// It returns the first looked up value. If there is no associated value with `framed_routing`, it returns `None`.",
  c!"pub fn lookup_framed_routing(packet: &Packet) -> Option<Result<FramedRouting, AVPError>> {",
  c!"    packet",
  c!"        .lookup(FRAMED_ROUTING_TYPE)",
  c!"        .map(|v| Ok(v.encode_u32()? as FramedRouting))",
  c!"}",
  c!"/// Lookup all of the `framed_routing` value-defined integer value from a packet.",
  c!"pub fn lookup_all_framed_routing(packet: &Packet) -> Result<Vec<FramedRouting>, AVPError> {",
  c!"    let mut vec = Vec::new();",
  c!"    for avp in packet.lookup_all(FRAMED_ROUTING_TYPE) {",
  c!"        vec.push(avp.encode_u32()? as FramedRouting)",
  c!"    }",
  c!"    Ok(vec)",
  c!"}",
  c!"",
  c!"pub const FILTER_ID_TYPE: AVPType = 11;",
  c!"/// Delete all of `filter_id` values from a packet.",
  c!"pub fn delete_filter_id(packet: &mut Packet) {"]

noncomputable def rfc2865Module_7 : List Str := [
  c!"    packet.delete(FILTER_ID_TYPE);",
  c!"}",
  c!"/// Add `filter_id` string value to a packet.",
  c!"pub fn add_filter_id(packet: &mut Packet, value: &str) {",
  c!"    packet.add(AVP::from_string(FILTER_ID_TYPE, value));",
  c!"}",
  c!"/// Lookup a `filter_id` string value from a packet.",
  c!"///",
  c!"/// It returns the first looked up value. If there is no associated value with `filter_id`, it returns `None`.",
  c!"pub fn lookup_filter_id(packet: &Packet) -> Option<Result<String, AVPError>> {",
  c!"    packet.lookup(FILTER_ID_TYPE).map(|v| v.encode_string())",
  c!"}",
  c!"/// Lookup all of the `filter_id` string value from a packet.",
  c!"pub fn lookup_all_filter_id(packet: &Packet) -> Result<Vec<String>, AVPError> {",
  c!"    let mut vec = Vec::new();",
  c!"    for avp in packet.lookup_all(FILTER_ID_TYPE) {",
  c!"        vec.push(avp.encode_string()?)",
  c!"    }",
  c!"    Ok(vec)",
  c!"}",
  c!"",
  c!"pub const FRAMED_MTU_TYPE: AVPType = 12;",
  c!"/// Delete all of `framed_mtu` values from a packet.",
  c!"pub fn delete_framed_mtu(packet: &mut Packet) {",
  c!"    packet.delete(FRAMED_MTU_TYPE);",
  c!"}",
  c!"/// Add `framed_mtu` integer value to a packet.",
  c!"pub fn add_framed_mtu(packet: &mut Packet, value: u32) {",
  c!"    packet.add(AVP::from_u32(FRAMED_MTU_TYPE, value));",
  c!"}",
  c!"/// Lookup a `framed_mtu` integer value from a packet.",
  c!"///",
  c!"/// It returns the first looked up value. If there is no associated value with `framed_mtu`, it returns `None`.",
  c!"pub fn lookup_framed_mtu(packet: &Packet) -> Option<Result<u32, AVPError>> {",
  c!"    packet.lookup(FRAMED_MTU_TYPE).map(|v| v.encode_u32())",
  c!"}",
  c!"/// Lookup all of the `framed_mtu` integer value from a packet.",
  c!"pub fn lookup_all_framed_mtu(packet: &Packet) -> Result<Vec<u32>, AVPError> {",
  c!"    let mut vec = Vec::new();",
  c!"    for avp in packet.lookup_all(FRAMED_MTU_TYPE) {",
  c!"        vec.push(avp.encode_u32()?)",
  c!"    }",
  c!"    Ok(vec)",
  c!"}",
  c!"",
  c!"pub const FRAMED_COMPRESSION_TYPE: AVPType = 13;",
  c!"/// Delete all of `framed_compression` values from a packet.",
  c!"pub fn delete_framed_compression(packet: &mut Packet) {",
  c!"    packet.delete(FRAMED_COMPRESSION_TYPE);",
  c!"}",
  c!"/// Add `framed_compression` value-defined integer value to a packet.",
  c!"pub fn add_framed_compression(packet: &mut Packet, value: FramedCompression) {",
  c!"    packet.add(AVP::from_u32(FRAMED_COMPRESSION_TYPE, value));",
  c!"}",
  c!"/// Lookup a `framed_compression` value-defined integer value from a packet.",
  c!"///",
  c!"/// It returns the first looked up value. If there is no associated value with `framed_compression`, it returns `None`.",
  c!"pub fn lookup_framed_compression(packet: &Packet) -> Option<Result<FramedCompression, AVPError>> {",
  c!"    packet",
  c!"        .lookup(FRAMED_COMPRESSION_TYPE)"]

noncomputable def rfc2865Module_8 : List Str := [
  c!"        .map(|v| Ok(v.encode_u32()? as FramedCompression))",
  c!"}",
  c!"/// Lookup all of the `framed_compression` value-defined integer value from a packet.",
  c!"pub fn lookup_all_framed_compression(packet: &Packet) -> Result<Vec<FramedCompression>, AVPError> {",
  c!"    let mut vec = Vec::new();",
  c!"    for avp in packet.lookup_all(FRAMED_COMPRESSION_TYPE) {",
  c!"        vec.push(avp.encode_u32()? as FramedCompression)",
  c!"    }",
  c!"    Ok(vec)",
  c!"}",
  c!"",
  c!"pub const LOGIN_IP_HOST_TYPE: AVPType = 14;",
  c!"/// Delete all of `login_ip_host` values from a packet.",
  c!"pub fn delete_login_ip_host(packet: &mut Packet) {",
  c!"    packet.delete(LOGIN_IP_HOST_TYPE);",
  c!"}",
  c!"/// Add `login_ip_host` ipaddr value to a packet.",
  c!"pub fn add_login_ip_host(packet: &mut Packet, value: &Ipv4Addr) {",
  c!"    packet.add(AVP::from_ipv4(LOGIN_IP_HOST_TYPE, value));",
  c!"}",
  c!"/// Lookup a `login_ip_host` ipaddr value from a packet.",
  c!"///",
  c!"/// It returns the first looked up value. If there is no associated value with `login_ip_host`, it returns `None`.",
  c!"pub fn lookup_login_ip_host(packet: &Packet) -> Option<Result<Ipv4Addr, AVPError>> {",
  c!"    packet.lookup(LOGIN_IP_HOST_TYPE).map(|v| v.encode_ipv4())",
  c!"}",
  c!"/// Lookup all of the `login_ip_host` ipaddr value from a packet.",
  c!"pub fn lookup_all_login_ip_host(packet: &Packet) -> Result<Vec<Ipv4Addr>, AVPError> {",
  c!"    let mut vec = Vec::new();",
  c!"    for avp in packet.lookup_all(LOGIN_IP_HOST_TYPE) {",
  c!"        vec.push(avp.encode_ipv4()?)",
  c!"    }",
  c!"    Ok(vec)",
  c!"}",
  c!"",
  c!"pub const LOGIN_SERVICE_TYPE: AVPType = 15;",
  c!"/// Delete all of `login_service` values from a packet.",
  c!"pub fn delete_login_service(packet: &mut Packet) {",
  c!"    packet.delete(LOGIN_SERVICE_TYPE);",
  c!"}",
  c!"/// Add `login_service` value-defined integer value to a packet.",
  c!"pub fn add_login_service(packet: &mut Packet, value: LoginService) {",
  c!"    packet.add(AVP::from_u32(LOGIN_SERVICE_TYPE, value));",
  c!"}",
  c!"/// Lookup a `login_service` value-defined integer value from a packet.",
  c!"///",
  c!"/// It returns the first looked up value. If there is no associated value with `login_service`, it returns `None`.",
  c!"pub fn lookup_login_service(packet: &Packet) -> Option<Result<LoginService, AVPError>> {",
  c!"    packet",
  c!"        .lookup(LOGIN_SERVICE_TYPE)",
  c!"        .map(|v| Ok(v.encode_u32()? as LoginService))",
  c!"}",
  c!"/// Lookup all of the `login_service` value-defined integer value from a packet.",
  c!"pub fn lookup_all_login_service(packet: &Packet) -> Result<Vec<LoginService>, AVPError> {",
  c!"    let mut vec = Vec::new();",
  c!"    for avp in packet.lookup_all(LOGIN_SERVICE_TYPE) {",
  c!"        vec.push(avp.encode_u32()? as LoginService)",
  c!"    }",
  c!"    Ok(vec)",
  c!"}"]

noncomputable def rfc2865Module_9 : List Str := [
  c!"",
  c!"pub const LOGIN_TCP_PORT_TYPE: AVPType = 16;",
  c!"/// Delete all of `login_tcp_port` values from a packet.",
  c!"pub fn delete_login_tcp_port(packet: &mut Packet) {",
  c!"    packet.delete(LOGIN_TCP_PORT_TYPE);",
  c!"}",
  c!"/// Add `login_tcp_port` value-defined integer value to a packet.",
  c!"pub fn add_login_tcp_port(packet: &mut Packet, value: LoginTCPPort) {",
  c!"    packet.add(AVP::from_u32(LOGIN_TCP_PORT_TYPE, value));",
  c!"}",
  c!"/// Lookup a `login_tcp_port` value-defined integer value from a packet.",
  c!"///",
  c!"/// It returns the first looked up value. If there is no associated value with `login_tcp_port`, it returns `None`.",
  c!"pub fn lookup_login_tcp_port(packet: &Packet) -> Option<Result<LoginTCPPort, AVPError>> {",
  c!"    packet",
  c!"        .lookup(LOGIN_TCP_PORT_TYPE)",
  c!"        .map(|v| Ok(v.encode_u32()? as LoginTCPPort))",
  c!"}",
  c!"/// Lookup all of the `login_tcp_port` value-defined integer value from a packet.",
  c!"pub fn lookup_all_login_tcp_port(packet: &Packet) -> Result<Vec<LoginTCPPort>, AVPError> {",
  c!"    let mut vec = Vec::new();",
  c!"    for avp in packet.lookup_all(LOGIN_TCP_PORT_TYPE) {",
  c!"        vec.push(avp.encode_u32()? as LoginTCPPort)",
  c!"    }",
  c!"    Ok(vec)",
  c!"}",
  c!"",
  c!"pub const REPLY_MESSAGE_TYPE: AVPType = 18;",
  c!"/// Delete all of `reply_message` values from a packet.",
  c!"pub fn delete_reply_message(packet: &mut Packet) {",
  c!"    packet.delete(REPLY_MESSAGE_TYPE);",
  c!"}",
  c!"/// Add `reply_message` string value to a packet.",
  c!"pub fn add_reply_message(packet: &mut Packet, value: &str) {",
  c!"    packet.add(AVP::from_string(REPLY_MESSAGE_TYPE, value));",
  c!"}",
  c!"/// Lookup a `reply_message` string value from a packet.",
  c!"///",
  c!"/// It returns the first looked up value. If there is no associated value with `reply_message`, it returns `None`.",
  c!"pub fn lookup_reply_message(packet: &Packet) -> Option<Result<String, AVPError>> {",
  c!"    packet.lookup(REPLY_MESSAGE_TYPE).map(|v| v.encode_string())",
  c!"}",
  c!"/// Lookup all of the `reply_message` string value from a packet.",
  c!"pub fn lookup_all_reply_message(packet: &Packet) -> Result<Vec<String>, AVPError> {",
  c!"    let mut vec = Vec::new();",
  c!"    for avp in packet.lookup_all(REPLY_MESSAGE_TYPE) {",
  c!"        vec.push(avp.encode_string()?)",
  c!"    }",
  c!"    Ok(vec)",
  c!"}",
  c!"",
  c!"pub const CALLBACK_NUMBER_TYPE: AVPType = 19;",
  c!"/// Delete all of `callback_number` values from a packet.",
  c!"pub fn delete_callback_number(packet: &mut Packet) {",
  c!"    packet.delete(CALLBACK_NUMBER_TYPE);",
  c!"}",
  c!"/// Add `callback_number` string value to a packet.",
  c!"pub fn add_callback_number(packet: &mut Packet, value: &str) {",
  c!"    packet.add(AVP::from_string(CALLBACK_NUMBER_TYPE, value));",
  c!"}"]

noncomputable def rfc2865Module_10 : List Str := [
  c!"/// Lookup a `callback_number` string value from a packet.",
  c!"///",
  c!"/// It returns the first looked up value. If there is no associated value with `callback_number`, it returns `None`.",
  c!"pub fn lookup_callback_number(packet: &Packet) -> Option<Result<String, AVPError>> {",
  c!"    packet",
  c!"        .lookup(CALLBACK_NUMBER_TYPE)",
  c!"        .map(|v| v.encode_string())",
  c!"}",
  c!"/// Lookup all of the `callback_number` string value from a packet.",
  c!"pub fn lookup_all_callback_number(packet: &Packet) -> Result<Vec<String>, AVPError> {",
  c!"    let mut vec = Vec::new();",
  c!"    for avp in packet.lookup_all(CALLBACK_NUMBER_TYPE) {",
  c!"        vec.push(avp.encode_string()?)",
  c!"    }",
  c!"    Ok(vec)",
  c!"}",
  c!"",
  c!"pub const CALLBACK_ID_TYPE: AVPType = 20;",
  c!"/// Delete all of `callback_id` values from a packet.",
  c!"pub fn delete_callback_id(packet: &mut Packet) {",
  c!"    packet.delete(CALLBACK_ID_TYPE);",
  c!"}",
  c!"/// Add `callback_id` string value to a packet.",
  c!"pub fn add_callback_id(packet: &mut Packet, value: &str) {",
  c!"    packet.add(AVP::from_string(CALLBACK_ID_TYPE, value));",
  c!"}",
  c!"/// Lookup a `callback_id` string value from a packet.",
  c!"///",
  c!"/// It returns the first looked up value. If there is no associated value with `callback_id`, it returns `None`.",
  c!"pub fn lookup_callback_id(packet: &Packet) -> Option<Result<String, AVPError>> {",
  c!"    packet.lookup(CALLBACK_ID_TYPE).map(|v| v.encode_string())",
  c!"}",
  c!"/// Lookup all of the `callback_id` string value from a packet.",
  c!"pub fn lookup_all_callback_id(packet: &Packet) -> Result<Vec<String>, AVPError> {",
  c!"    let mut vec = Vec::new();",
  c!"    for avp in packet.lookup_all(CALLBACK_ID_TYPE) {",
  c!"        vec.push(avp.encode_string()?)",
  c!"    }",
  c!"    Ok(vec)",
  c!"}",
  c!"",
  c!"pub const FRAMED_ROUTE_TYPE: AVPType = 22;",
  c!"/// Delete all of `framed_route` values from a packet.",
  c!"pub fn delete_framed_route(packet: &mut Packet) {",
  c!"    packet.delete(FRAMED_ROUTE_TYPE);",
  c!"}",
  c!"/// Add `framed_route` string value to a packet.",
  c!"pub fn add_framed_route(packet: &mut Packet, value: &str) {",
  c!"    packet.add(AVP::from_string(FRAMED_ROUTE_TYPE, value));",
  c!"}",
  c!"/// Lookup a `framed_route` string value from a packet.",
  c!"///",
  c!"/// It returns the first looked up value. If there is no associated value with `framed_route`, it returns `None`.",
  c!"pub fn lookup_framed_route(packet: &Packet) -> Option<Result<String, AVPError>> {",
  c!"    packet.lookup(FRAMED_ROUTE_TYPE).map(|v| v.encode_string())",
  c!"}",
  c!"/// Lookup all of the `framed_route` string value from a packet.",
  c!"pub fn lookup_all_framed_route(packet: &Packet) -> Result<Vec<String>, AVPError> {",
  c!"    let mut vec = Vec::new();",
  c!"    for avp in packet.lookup_all(FRAMED_ROUTE_TYPE) {"]

noncomputable def rfc2865Module_11 : List Str := [
  c!"        vec.push(avp.encode_string()?)",
  c!"    }",
  c!"    Ok(vec)",
  c!"}",
  c!"",
  c!"pub const FRAMED_IPX_NETWORK_TYPE: AVPType = 23;",
  c!"/// Delete all of `framed_ipx_network` values from a packet.",
  c!"pub fn delete_framed_ipx_network(packet: &mut Packet) {",
  c!"    packet.delete(FRAMED_IPX_NETWORK_TYPE);",
  c!"}",
  c!"/// Add `framed_ipx_network` ipaddr value to a packet.",
  c!"pub fn add_framed_ipx_network(packet: &mut Packet, value: &Ipv4Addr) {",
  c!"    packet.add(AVP::from_ipv4(FRAMED_IPX_NETWORK_TYPE, value));",
  c!"}",
  c!"/// Lookup a `framed_ipx_network` ipaddr value from a packet.",
  c!"///",
  c!"/// It returns the first looked up value. If there is no associated value with `framed_ipx_network`, it returns `None`.",
  c!"pub fn lookup_framed_ipx_network(packet: &Packet) -> Option<Result<Ipv4Addr, AVPError>> {",
  c!"    packet",
  c!"        .lookup(FRAMED_IPX_NETWORK_TYPE)",
  c!"        .map(|v| v.encode_ipv4())",
  c!"}",
  c!"/// Lookup all of the `framed_ipx_network` ipaddr value from a packet.",
  c!"pub fn lookup_all_framed_ipx_network(packet: &Packet) -> Result<Vec<Ipv4Addr>, AVPError> {",
  c!"    let mut vec = Vec::new();",
  c!"    for avp in packet.lookup_all(FRAMED_IPX_NETWORK_TYPE) {",
  c!"        vec.push(avp.encode_ipv4()?)",
  c!"    }",
  c!"    Ok(vec)",
  c!"}",
  c!"",
  c!"pub const STATE_TYPE: AVPType = 24;",
  c!"/// Delete all of `state` values from a packet.",
  c!"pub fn delete_state(packet: &mut Packet) {",
  c!"    packet.delete(STATE_TYPE);",
  c!"}",
  c!"/// Add `state` octets value to a packet.",
  c!"pub fn add_state(packet: &mut Packet, value: &[u8]) {",
  c!"    packet.add(AVP::from_bytes(STATE_TYPE, value));",
  c!"}",
  c!"/// Lookup a `state` octets value from a packet.",
  c!"///",
  c!"/// It returns the first looked up value. If there is no associated value with `state`, it returns `None`.",
  c!"pub fn lookup_state(packet: &Packet) -> Option<Vec<u8>> {",
  c!"    packet.lookup(STATE_TYPE).map(|v| v.encode_bytes())",
  c!"}",
  c!"/// Lookup all of the `state` octets value from a packet.",
  c!"pub fn lookup_all_state(packet: &Packet) -> Vec<Vec<u8>> {",
  c!"    let mut vec = Vec::new();",
  c!"    for avp in packet.lookup_all(STATE_TYPE) {",
  c!"        vec.push(avp.encode_bytes())",
  c!"    }",
  c!"    vec",
  c!"}",
  c!"",
  c!"pub const CLASS_TYPE: AVPType = 25;",
  c!"/// Delete all of `class` values from a packet.",
  c!"pub fn delete_class(packet: &mut Packet) {",
  c!"    packet.delete(CLASS_TYPE);",
  c!"}"]

noncomputable def rfc2865Module_12 : List Str := [
  c!"/// Add `class` octets value to a packet.",
  c!"pub fn add_class(packet: &mut Packet, value: &[u8]) {",
  c!"    packet.add(AVP::from_bytes(CLASS_TYPE, value));",
  c!"}",
  c!"/// Lookup a `class` octets value from a packet.",
  c!"///",
  c!"/// It returns the first looked up value. If there is no associated value with `class`, it returns `None`.",
  c!"pub fn lookup_class(packet: &Packet) -> Option<Vec<u8>> {",
  c!"    packet.lookup(CLASS_TYPE).map(|v| v.encode_bytes())",
  c!"}",
  c!"/// Lookup all of the `class` octets value from a packet.",
  c!"pub fn lookup_all_class(packet: &Packet) -> Vec<Vec<u8>> {",
  c!"    let mut vec = Vec::new();",
  c!"    for avp in packet.lookup_all(CLASS_TYPE) {",
  c!"        vec.push(avp.encode_bytes())",
  c!"    }",
  c!"    vec",
  c!"}",
  c!"",
  c!"pub const VENDOR_SPECIFIC_TYPE: AVPType = 26;",
  c!"/// Delete all of `vendor_specific` values from a packet.",
  c!"pub fn delete_vendor_specific(packet: &mut Packet) {",
  c!"    packet.delete(VENDOR_SPECIFIC_TYPE);",
  c!"}",
  c!"",
  c!"pub const SESSION_TIMEOUT_TYPE: AVPType = 27;",
  c!"/// Delete all of `session_timeout` values from a packet.",
  c!"pub fn delete_session_timeout(packet: &mut Packet) {",
  c!"    packet.delete(SESSION_TIMEOUT_TYPE);",
  c!"}",
  c!"/// Add `session_timeout` integer value to a packet.",
  c!"pub fn add_session_timeout(packet: &mut Packet, value: u32) {",
  c!"    packet.add(AVP::from_u32(SESSION_TIMEOUT_TYPE, value));",
  c!"}",
  c!"/// Lookup a `session_timeout` integer value from a packet.",
  c!"///",
  c!"/// It returns the first looked up value. If there is no associated value with `session_timeout`, it returns `None`.",
  c!"pub fn lookup_session_timeout(packet: &Packet) -> Option<Result<u32, AVPError>> {",
  c!"    packet.lookup(SESSION_TIMEOUT_TYPE).map(|v| v.encode_u32())",
  c!"}",
  c!"/// Lookup all of the `session_timeout` integer value from a packet.",
  c!"pub fn lookup_all_session_timeout(packet: &Packet) -> Result<Vec<u32>, AVPError> {",
  c!"    let mut vec = Vec::new();",
  c!"    for avp in packet.lookup_all(SESSION_TIMEOUT_TYPE) {",
  c!"        vec.push(avp.encode_u32()?)",
  c!"    }",
  c!"    Ok(vec)",
  c!"}",
  c!"",
  c!"pub const IDLE_TIMEOUT_TYPE: AVPType = 28;",
  c!"/// Delete all of `idle_timeout` values from a packet.",
  c!"pub fn delete_idle_timeout(packet: &mut Packet) {",
  c!"    packet.delete(IDLE_TIMEOUT_TYPE);",
  c!"}",
  c!"/// Add `idle_timeout` integer value to a packet.",
  c!"pub fn add_idle_timeout(packet: &mut Packet, value: u32) {",
  c!"    packet.add(AVP::from_u32(IDLE_TIMEOUT_TYPE, value));",
  c!"}",
  c!"/// Lookup a `idle_timeout` integer value from a packet.",
  c!"///"]

noncomputable def rfc2865Module_13 : List Str := [
  c!"/// It returns the first looked up value. If there is no associated value with `idle_timeout`, it returns `None`.",
  c!"pub fn lookup_idle_timeout(packet: &Packet) -> Option<Result<u32, AVPError>> {",
  c!"    packet.lookup(IDLE_TIMEOUT_TYPE).map(|v| v.encode_u32())",
  c!"}",
  c!"/// Lookup all of the `idle_timeout` integer value from a packet.",
  c!"pub fn lookup_all_idle_timeout(packet: &Packet) -> Result<Vec<u32>, AVPError> {",
  c!"    let mut vec = Vec::new();",
  c!"    for avp in packet.lookup_all(IDLE_TIMEOUT_TYPE) {",
  c!"        vec.push(avp.encode_u32()?)",
  c!"    }",
  c!"    Ok(vec)",
  c!"}",
  c!"",
  c!"pub const TERMINATION_ACTION_TYPE: AVPType = 29;",
  c!"/// Delete all of `termination_action` values from a packet.",
  c!"pub fn delete_termination_action(packet: &mut Packet) {",
  c!"    packet.delete(TERMINATION_ACTION_TYPE);",
  c!"}",
  c!"/// Add `termination_action` value-defined integer value to a packet.",
  c!"pub fn add_termination_action(packet: &mut Packet, value: TerminationAction) {",
  c!"    packet.add(AVP::from_u32(TERMINATION_ACTION_TYPE, value));",
  c!"}",
  c!"/// Lookup a `termination_action` value-defined integer value from a packet.",
  c!"///",
  c!"/// It returns the first looked up value. If there is no associated value with `termination_action`, it returns `None`.",
  c!"pub fn lookup_termination_action(packet: &Packet) -> Option<Result<TerminationAction, AVPError>> {",
  c!"    packet",
  c!"        .lookup(TERMINATION_ACTION_TYPE)",
  c!"        .map(|v| Ok(v.encode_u32()? as TerminationAction))",
  c!"}",
  c!"/// Lookup all of the `termination_action` value-defined integer value from a packet.",
  c!"pub fn lookup_all_termination_action(packet: &Packet) -> Result<Vec<TerminationAction>, AVPError> {",
  c!"    let mut vec = Vec::new();",
  c!"    for avp in packet.lookup_all(TERMINATION_ACTION_TYPE) {",
  c!"        vec.push(avp.encode_u32()? as TerminationAction)",
  c!"    }",
  c!"    Ok(vec)",
  c!"}",
  c!"",
  c!"pub const CALLED_STATION_ID_TYPE: AVPType = 30;",
  c!"/// Delete all of `called_station_id` values from a packet.",
  c!"pub fn delete_called_station_id(packet: &mut Packet) {",
  c!"    packet.delete(CALLED_STATION_ID_TYPE);",
  c!"}",
  c!"/// Add `called_station_id` string value to a packet.",
  c!"pub fn add_called_station_id(packet: &mut Packet, value: &str) {",
  c!"    packet.add(AVP::from_string(CALLED_STATION_ID_TYPE, value));",
  c!"}",
  c!"/// Lookup a `called_station_id` string value from a packet.",
  c!"///",
  c!"/// It returns the first looked up value. If there is no associated value with `called_station_id`, it returns `None`.",
  c!"pub fn lookup_called_station_id(packet: &Packet) -> Option<Result<String, AVPError>> {",
  c!"    packet",
  c!"        .lookup(CALLED_STATION_ID_TYPE)",
  c!"        .map(|v| v.encode_string())",
  c!"}",
  c!"/// Lookup all of the `called_station_id` string value from a packet.",
  c!"pub fn lookup_all_called_station_id(packet: &Packet) -> Result<Vec<String>, AVPError> {",
  c!"    let mut vec = Vec::new();",
  c!"    for avp in packet.lookup_all(CALLED_STATION_ID_TYPE) {"]

noncomputable def rfc2865Module_14 : List Str := [
  c!"        vec.push(avp.encode_string()?)",
  c!"    }",
  c!"    Ok(vec)",
  c!"}",
  c!"",
  c!"pub const CALLING_STATION_ID_TYPE: AVPType = 31;",
  c!"/// Delete all of `calling_station_id` values from a packet.",
  c!"pub fn delete_calling_station_id(packet: &mut Packet) {",
  c!"    packet.delete(CALLING_STATION_ID_TYPE);",
  c!"}",
  c!"/// Add `calling_station_id` string value to a packet.",
  c!"pub fn add_calling_station_id(packet: &mut Packet, value: &str) {",
  c!"    packet.add(AVP::from_string(CALLING_STATION_ID_TYPE, value));",
  c!"}",
  c!"/// Lookup a `calling_station_id` string value from a packet.",
  c!"///",
  c!"/// It returns the first looked up value. If there is no associated value with `calling_station_id`, it returns `None`.",
  c!"pub fn lookup_calling_station_id(packet: &Packet) -> Option<Result<String, AVPError>> {",
  c!"    packet",
  c!"        .lookup(CALLING_STATION_ID_TYPE)",
  c!"        .map(|v| v.encode_string())",
  c!"}",
  c!"/// Lookup all of the `calling_station_id` string value from a packet.",
  c!"pub fn lookup_all_calling_station_id(packet: &Packet) -> Result<Vec<String>, AVPError> {",
  c!"    let mut vec = Vec::new();",
  c!"    for avp in packet.lookup_all(CALLING_STATION_ID_TYPE) {",
  c!"        vec.push(avp.encode_string()?)",
  c!"    }",
  c!"    Ok(vec)",
  c!"}",
  c!"",
  c!"pub const NAS_IDENTIFIER_TYPE: AVPType = 32;",
  c!"/// Delete all of `nas_identifier` values from a packet.",
  c!"pub fn delete_nas_identifier(packet: &mut Packet) {",
  c!"    packet.delete(NAS_IDENTIFIER_TYPE);",
  c!"}",
  c!"/// Add `nas_identifier` string value to a packet.",
  c!"pub fn add_nas_identifier(packet: &mut Packet, value: &str) {",
  c!"    packet.add(AVP::from_string(NAS_IDENTIFIER_TYPE, value));",
  c!"}",
  c!"/// Lookup a `nas_identifier` string value from a packet.",
  c!"///",
  c!"/// It returns the first looked up value. If there is no associated value with `nas_identifier`, it returns `None`.",
  c!"pub fn lookup_nas_identifier(packet: &Packet) -> Option<Result<String, AVPError>> {",
  c!"    packet",
  c!"        .lookup(NAS_IDENTIFIER_TYPE)",
  c!"        .map(|v| v.encode_string())",
  c!"}",
  c!"/// Lookup all of the `nas_identifier` string value from a packet.",
  c!"pub fn lookup_all_nas_identifier(packet: &Packet) -> Result<Vec<String>, AVPError> {",
  c!"    let mut vec = Vec::new();",
  c!"    for avp in packet.lookup_all(NAS_IDENTIFIER_TYPE) {",
  c!"        vec.push(avp.encode_string()?)",
  c!"    }",
  c!"    Ok(vec)",
  c!"}",
  c!"",
  c!"pub const PROXY_STATE_TYPE: AVPType = 33;",
  c!"/// Delete all of `proxy_state` values from a packet.",
  c!"pub fn delete_proxy_state(packet: &mut Packet) {"]

noncomputable def rfc2865Module_15 : List Str := [
  c!"    packet.delete(PROXY_STATE_TYPE);",
  c!"}",
  c!"/// Add `proxy_state` octets value to a packet.",
  c!"pub fn add_proxy_state(packet: &mut Packet, value: &[u8]) {",
  c!"    packet.add(AVP::from_bytes(PROXY_STATE_TYPE, value));",
  c!"}",
  c!"/// Lookup a `proxy_state` octets value from a packet.",
  c!"///",
  c!"/// It returns the first looked up value. If there is no associated value with `proxy_state`, it returns `None`.",
  c!"pub fn lookup_proxy_state(packet: &Packet) -> Option<Vec<u8>> {",
  c!"    packet.lookup(PROXY_STATE_TYPE).map(|v| v.encode_bytes())",
  c!"}",
  c!"/// Lookup all of the `proxy_state` octets value from a packet.",
  c!"pub fn lookup_all_proxy_state(packet: &Packet) -> Vec<Vec<u8>> {",
  c!"    let mut vec = Vec::new();",
  c!"    for avp in packet.lookup_all(PROXY_STATE_TYPE) {",
  c!"        vec.push(avp.encode_bytes())",
  c!"    }",
  c!"    vec",
  c!"}",
  c!"",
  c!"pub const LOGIN_LAT_SERVICE_TYPE: AVPType = 34;",
  c!"/// Delete all of `login_lat_service` values from a packet.",
  c!"pub fn delete_login_lat_service(packet: &mut Packet) {",
  c!"    packet.delete(LOGIN_LAT_SERVICE_TYPE);",
  c!"}",
  c!"/// Add `login_lat_service` string value to a packet.",
  c!"pub fn add_login_lat_service(packet: &mut Packet, value: &str) {",
  c!"    packet.add(AVP::from_string(LOGIN_LAT_SERVICE_TYPE, value));",
  c!"}",
  c!"/// Lookup a `login_lat_service` string value from a packet.",
  c!"///",
  c!"/// It returns the first looked up value. If there is no associated value with `login_lat_service`, it returns `None`.",
  c!"pub fn lookup_login_lat_service(packet: &Packet) -> Option<Result<String, AVPError>> {",
  c!"    packet",
  c!"        .lookup(LOGIN_LAT_SERVICE_TYPE)",
  c!"        .map(|v| v.encode_string())",
  c!"}",
  c!"/// Lookup all of the `login_lat_service` string value from a packet.",
  c!"pub fn lookup_all_login_lat_service(packet: &Packet) -> Result<Vec<String>, AVPError> {",
  c!"    let mut vec = Vec::new();",
  c!"    for avp in packet.lookup_all(LOGIN_LAT_SERVICE_TYPE) {",
  c!"        vec.push(avp.encode_string()?)",
  c!"    }",
  c!"    Ok(vec)",
  c!"}",
  c!"",
  c!"pub const LOGIN_LAT_NODE_TYPE: AVPType = 35;",
  c!"/// Delete all of `login_lat_node` values from a packet.",
  c!"pub fn delete_login_lat_node(packet: &mut Packet) {",
  c!"    packet.delete(LOGIN_LAT_NODE_TYPE);",
  c!"}",
  c!"/// Add `login_lat_node` string value to a packet.",
  c!"pub fn add_login_lat_node(packet: &mut Packet, value: &str) {",
  c!"    packet.add(AVP::from_string(LOGIN_LAT_NODE_TYPE, value));",
  c!"}",
  c!"/// Lookup a `login_lat_node` string value from a packet.",
  c!"///",
  c!"/// It returns the first looked up value. If there is no associated value with `login_lat_node`, it returns `None`.",
  c!"pub fn lookup_login_lat_node(packet: &Packet) -> Option<Result<String, AVPError>> {"]

noncomputable def rfc2865Module_16 : List Str := [
  c!"    packet",
  c!"        .lookup(LOGIN_LAT_NODE_TYPE)",
  c!"        .map(|v| v.encode_string())",
  c!"}",
  c!"/// Lookup all of the `login_lat_node` string value from a packet.",
  c!"pub fn lookup_all_login_lat_node(packet: &Packet) -> Result<Vec<String>, AVPError> {",
  c!"    let mut vec = Vec::new();",
  c!"    for avp in packet.lookup_all(LOGIN_LAT_NODE_TYPE) {",
  c!"        vec.push(avp.encode_string()?)",
  c!"    }",
  c!"    Ok(vec)",
  c!"}",
  c!"",
  c!"pub const LOGIN_LAT_GROUP_TYPE: AVPType = 36;",
  c!"/// Delete all of `login_lat_group` values from a packet.",
  c!"pub fn delete_login_lat_group(packet: &mut Packet) {",
  c!"    packet.delete(LOGIN_LAT_GROUP_TYPE);",
  c!"}",
  c!"/// Add `login_lat_group` octets value to a packet.",
  c!"pub fn add_login_lat_group(packet: &mut Packet, value: &[u8]) {",
  c!"    packet.add(AVP::from_bytes(LOGIN_LAT_GROUP_TYPE, value));",
  c!"}",
  c!"/// Lookup a `login_lat_group` octets value from a packet.",
  c!"///",
  c!"/// It returns the first looked up value. If there is no associated value with `login_lat_group`, it returns `None`.",
  c!"pub fn lookup_login_lat_group(packet: &Packet) -> Option<Vec<u8>> {",
  c!"    packet",
  c!"        .lookup(LOGIN_LAT_GROUP_TYPE)",
  c!"        .map(|v| v.encode_bytes())",
  c!"}",
  c!"/// Lookup all of the `login_lat_group` octets value from a packet.",
  c!"pub fn lookup_all_login_lat_group(packet: &Packet) -> Vec<Vec<u8>> {",
  c!"    let mut vec = Vec::new();",
  c!"    for avp in packet.lookup_all(LOGIN_LAT_GROUP_TYPE) {",
  c!"        vec.push(avp.encode_bytes())",
  c!"    }",
  c!"    vec",
  c!"}",
  c!"",
  c!"pub const FRAMED_APPLE_TALK_LINK_TYPE: AVPType = 37;",
  c!"/// Delete all of `framed_apple_talk_link` values from a packet.",
  c!"pub fn delete_framed_apple_talk_link(packet: &mut Packet) {",
  c!"    packet.delete(FRAMED_APPLE_TALK_LINK_TYPE);",
  c!"}",
  c!"/// Add `framed_apple_talk_link` integer value to a packet.",
  c!"pub fn add_framed_apple_talk_link(packet: &mut Packet, value: u32) {",
  c!"    packet.add(AVP::from_u32(FRAMED_APPLE_TALK_LINK_TYPE, value));",
  c!"}",
  c!"/// Lookup a `framed_apple_talk_link` integer value from a packet.",
  c!"///",
  c!"/// It returns the first looked up value. If there is no associated value with `framed_apple_talk_link`, it returns `None`.",
  c!"pub fn lookup_framed_apple_talk_link(packet: &Packet) -> Option<Result<u32, AVPError>> {",
  c!"    packet",
  c!"        .lookup(FRAMED_APPLE_TALK_LINK_TYPE)",
  c!"        .map(|v| v.encode_u32())",
  c!"}",
  c!"/// Lookup all of the `framed_apple_talk_link` integer value from a packet.",
  c!"pub fn lookup_all_framed_apple_talk_link(packet: &Packet) -> Result<Vec<u32>, AVPError> {",
  c!"    let mut vec = Vec::new();",
  c!"    for avp in packet.lookup_all(FRAMED_APPLE_TALK_LINK_TYPE) {"]

noncomputable def rfc2865Module_17 : List Str := [
  c!"        vec.push(avp.encode_u32()?)",
  c!"    }",
  c!"    Ok(vec)",
  c!"}",
  c!"",
  c!"pub const FRAMED_APPLE_TALK_NETWORK_TYPE: AVPType = 38;",
  c!"/// Delete all of `framed_apple_talk_network` values from a packet.",
  c!"pub fn delete_framed_apple_talk_network(packet: &mut Packet) {",
  c!"    packet.delete(FRAMED_APPLE_TALK_NETWORK_TYPE);",
  c!"}",
  c!"/// Add `framed_apple_talk_network` integer value to a packet.",
  c!"pub fn add_framed_apple_talk_network(packet: &mut Packet, value: u32) {",
  c!"    packet.add(AVP::from_u32(FRAMED_APPLE_TALK_NETWORK_TYPE, value));",
  c!"}",
  c!"/// Lookup a `framed_apple_talk_network` integer value from a packet.",
  c!"///",
  c!"/// It returns the first looked up value. If there is no associated value with `framed_apple_talk_network`, it returns `None`.",
  c!"pub fn lookup_framed_apple_talk_network(packet: &Packet) -> Option<Result<u32, AVPError>> {",
  c!"    packet",
  c!"        .lookup(FRAMED_APPLE_TALK_NETWORK_TYPE)",
  c!"        .map(|v| v.encode_u32())",
  c!"}",
  c!"/// Lookup all of the `framed_apple_talk_network` integer value from a packet.",
  c!"pub fn lookup_all_framed_apple_talk_network(packet: &Packet) -> Result<Vec<u32>, AVPError> {",
  c!"    let mut vec = Vec::new();",
  c!"    for avp in packet.lookup_all(FRAMED_APPLE_TALK_NETWORK_TYPE) {",
  c!"        vec.push(avp.encode_u32()?)",
  c!"    }",
  c!"    Ok(vec)",
  c!"}",
  c!"",
  c!"pub const FRAMED_APPLE_TALK_ZONE_TYPE: AVPType = 39;",
  c!"/// Delete all of `framed_apple_talk_zone` values from a packet.",
  c!"pub fn delete_framed_apple_talk_zone(packet: &mut Packet) {",
  c!"    packet.delete(FRAMED_APPLE_TALK_ZONE_TYPE);",
  c!"}",
  c!"/// Add `framed_apple_talk_zone` string value to a packet.",
  c!"pub fn add_framed_apple_talk_zone(packet: &mut Packet, value: &str) {",
  c!"    packet.add(AVP::from_string(FRAMED_APPLE_TALK_ZONE_TYPE, value));",
  c!"}",
  c!"/// Lookup a `framed_apple_talk_zone` string value from a packet.",
  c!"///",
  c!"/// It returns the first looked up value. If there is no associated value with `framed_apple_talk_zone`, it returns `None`.",
  c!"pub fn lookup_framed_apple_talk_zone(packet: &Packet) -> Option<Result<String, AVPError>> {",
  c!"    packet",
  c!"        .lookup(FRAMED_APPLE_TALK_ZONE_TYPE)",
  c!"        .map(|v| v.encode_string())",
  c!"}",
  c!"/// Lookup all of the `framed_apple_talk_zone` string value from a packet.",
  c!"pub fn lookup_all_framed_apple_talk_zone(packet: &Packet) -> Result<Vec<String>, AVPError> {",
  c!"    let mut vec = Vec::new();",
  c!"    for avp in packet.lookup_all(FRAMED_APPLE_TALK_ZONE_TYPE) {",
  c!"        vec.push(avp.encode_string()?)",
  c!"    }",
  c!"    Ok(vec)",
  c!"}",
  c!"",
  c!"pub const CHAP_CHALLENGE_TYPE: AVPType = 60;",
  c!"/// Delete all of `chap_challenge` values from a packet.",
  c!"pub fn delete_chap_challenge(packet: &mut Packet) {"]

noncomputable def rfc2865Module_18 : List Str := [
  c!"    packet.delete(CHAP_CHALLENGE_TYPE);",
  c!"}",
  c!"/// Add `chap_challenge` octets value to a packet.",
  c!"pub fn add_chap_challenge(packet: &mut Packet, value: &[u8]) {",
  c!"    packet.add(AVP::from_bytes(CHAP_CHALLENGE_TYPE, value));",
  c!"}",
  c!"/// Lookup a `chap_challenge` octets value from a packet.",
  c!"///",
  c!"/// It returns the first looked up value. If there is no associated value with `chap_challenge`, it returns `None`.",
  c!"pub fn lookup_chap_challenge(packet: &Packet) -> Option<Vec<u8>> {",
  c!"    packet.lookup(CHAP_CHALLENGE_TYPE).map(|v| v.encode_bytes())",
  c!"}",
  c!"/// Lookup all of the `chap_challenge` octets value from a packet.",
  c!"pub fn lookup_all_chap_challenge(packet: &Packet) -> Vec<Vec<u8>> {",
  c!"    let mut vec = Vec::new();",
  c!"    for avp in packet.lookup_all(CHAP_CHALLENGE_TYPE) {",
  c!"        vec.push(avp.encode_bytes())",
  c!"    }",
  c!"    vec",
  c!"}",
  c!"",
  c!"pub const NAS_PORT_TYPE_TYPE: AVPType = 61;",
  c!"/// Delete all of `nas_port_type` values from a packet.",
  c!"pub fn delete_nas_port_type(packet: &mut Packet) {",
  c!"    packet.delete(NAS_PORT_TYPE_TYPE);",
  c!"}",
  c!"/// Add `nas_port_type` value-defined integer value to a packet.",
  c!"pub fn add_nas_port_type(packet: &mut Packet, value: NasPortType) {",
  c!"    packet.add(AVP::from_u32(NAS_PORT_TYPE_TYPE, value));",
  c!"}",
  c!"/// Lookup a `nas_port_type` value-defined integer value from a packet.",
  c!"///",
  c!"/// It returns the first looked up value. If there is no associated value with `nas_port_type`, it returns `None`.",
  c!"pub fn lookup_nas_port_type(packet: &Packet) -> Option<Result<NasPortType, AVPError>> {",
  c!"    packet",
  c!"        .lookup(NAS_PORT_TYPE_TYPE)",
  c!"        .map(|v| Ok(v.encode_u32()? as NasPortType))",
  c!"}",
  c!"/// Lookup all of the `nas_port_type` value-defined integer value from a packet.",
  c!"pub fn lookup_all_nas_port_type(packet: &Packet) -> Result<Vec<NasPortType>, AVPError> {",
  c!"    let mut vec = Vec::new();",
  c!"    for avp in packet.lookup_all(NAS_PORT_TYPE_TYPE) {",
  c!"        vec.push(avp.encode_u32()? as NasPortType)",
  c!"    }",
  c!"    Ok(vec)",
  c!"}",
  c!"",
  c!"pub const PORT_LIMIT_TYPE: AVPType = 62;",
  c!"/// Delete all of `port_limit` values from a packet.",
  c!"pub fn delete_port_limit(packet: &mut Packet) {",
  c!"    packet.delete(PORT_LIMIT_TYPE);",
  c!"}",
  c!"/// Add `port_limit` integer value to a packet.",
  c!"pub fn add_port_limit(packet: &mut Packet, value: u32) {",
  c!"    packet.add(AVP::from_u32(PORT_LIMIT_TYPE, value));",
  c!"}",
  c!"/// Lookup a `port_limit` integer value from a packet.",
  c!"///",
  c!"/// It returns the first looked up value. If there is no associated value with `port_limit`, it returns `None`.",
  c!"pub fn lookup_port_limit(packet: &Packet) -> Option<Result<u32, AVPError>> {"]

noncomputable def rfc2865Module_19 : List Str := [
  c!"    packet.lookup(PORT_LIMIT_TYPE).map(|v| v.encode_u32())",
  c!"}",
  c!"/// Lookup all of the `port_limit` integer value from a packet.",
  c!"pub fn lookup_all_port_limit(packet: &Packet) -> Result<Vec<u32>, AVPError> {",
  c!"    let mut vec = Vec::new();",
  c!"    for avp in packet.lookup_all(PORT_LIMIT_TYPE) {",
  c!"        vec.push(avp.encode_u32()?)",
  c!"    }",
  c!"    Ok(vec)",
  c!"}",
  c!"",
  c!"pub const LOGIN_LAT_PORT_TYPE: AVPType = 63;",
  c!"/// Delete all of `login_lat_port` values from a packet.",
  c!"pub fn delete_login_lat_port(packet: &mut Packet) {",
  c!"    packet.delete(LOGIN_LAT_PORT_TYPE);",
  c!"}",
  c!"/// Add `login_lat_port` string value to a packet.",
  c!"pub fn add_login_lat_port(packet: &mut Packet, value: &str) {",
  c!"    packet.add(AVP::from_string(LOGIN_LAT_PORT_TYPE, value));",
  c!"}",
  c!"/// Lookup a `login_lat_port` string value from a packet.",
  c!"///",
  c!"/// It returns the first looked up value. If there is no associated value with `login_lat_port`, it returns `None`.",
  c!"pub fn lookup_login_lat_port(packet: &Packet) -> Option<Result<String, AVPError>> {",
  c!"    packet",
  c!"        .lookup(LOGIN_LAT_PORT_TYPE)",
  c!"        .map(|v| v.encode_string())",
  c!"}",
  c!"/// Lookup all of the `login_lat_port` string value from a packet.",
  c!"pub fn lookup_all_login_lat_port(packet: &Packet) -> Result<Vec<String>, AVPError> {",
  c!"    let mut vec = Vec::new();",
  c!"    for avp in packet.lookup_all(LOGIN_LAT_PORT_TYPE) {",
  c!"        vec.push(avp.encode_string()?)",
  c!"    }",
  c!"    Ok(vec)",
  c!"}",
  c!"",
  c!"pub type FramedCompression = u32;",
  c!"pub const FRAMED_COMPRESSION_NONE: FramedCompression = 0;",
  c!"pub const FRAMED_COMPRESSION_VAN_JACOBSON_TCP_IP: FramedCompression = 1;",
  c!"pub const FRAMED_COMPRESSION_IPX_HEADER_COMPRESSION: FramedCompression = 2;",
  c!"pub const FRAMED_COMPRESSION_STAC_LZS: FramedCompression = 3;",
  c!"",
  c!"pub type FramedProtocol = u32;",
  c!"pub const FRAMED_PROTOCOL_PPP: FramedProtocol = 1;",
  c!"pub const FRAMED_PROTOCOL_SLIP: FramedProtocol = 2;",
  c!"pub const FRAMED_PROTOCOL_ARAP: FramedProtocol = 3;",
  c!"pub const FRAMED_PROTOCOL_GANDALF_SLML: FramedProtocol = 4;",
  c!"pub const FRAMED_PROTOCOL_XYLOGICS_IPX_SLIP: FramedProtocol = 5;",
  c!"pub const FRAMED_PROTOCOL_X_75_SYNCHRONOUS: FramedProtocol = 6;",
  c!"",
  c!"pub type FramedRouting = u32;",
  c!"pub const FRAMED_ROUTING_NONE: FramedRouting = 0;",
  c!"pub const FRAMED_ROUTING_BROADCAST: FramedRouting = 1;",
  c!"pub const FRAMED_ROUTING_LISTEN: FramedRouting = 2;",
  c!"pub const FRAMED_ROUTING_BROADCAST_LISTEN: FramedRouting = 3;",
  c!"",
  c!"pub type LoginService = u32;",
  c!"pub const LOGIN_SERVICE_TELNET: LoginService = 0;",
  c!"pub const LOGIN_SERVICE_RLOGIN: LoginService = 1;"]

noncomputable def rfc2865Module_20 : List Str := [
  c!"pub const LOGIN_SERVICE_TCP_CLEAR: LoginService = 2;",
  c!"pub const LOGIN_SERVICE_PORT_MASTER: LoginService = 3;",
  c!"pub const LOGIN_SERVICE_LAT: LoginService = 4;",
  c!"pub const LOGIN_SERVICE_X25_PAD: LoginService = 5;",
  c!"pub const LOGIN_SERVICE_X25_T3POS: LoginService = 6;",
  c!"pub const LOGIN_SERVICE_TCP_CLEAR_QUIET: LoginService = 8;",
  c!"",
  c!"pub type LoginTCPPort = u32;",
  c!"pub const LOGIN_TCP_PORT_TELNET: LoginTCPPort = 23;",
  c!"pub const LOGIN_TCP_PORT_RLOGIN: LoginTCPPort = 513;",
  c!"pub const LOGIN_TCP_PORT_RSH: LoginTCPPort = 514;",
  c!"",
  c!"pub type NasPortType = u32;",
  c!"pub const NAS_PORT_TYPE_ASYNC: NasPortType = 0;",
  c!"pub const NAS_PORT_TYPE_SYNC: NasPortType = 1;",
  c!"pub const NAS_PORT_TYPE_ISDN: NasPortType = 2;",
  c!"pub const NAS_PORT_TYPE_ISDN_V120: NasPortType = 3;",
  c!"pub const NAS_PORT_TYPE_ISDN_V110: NasPortType = 4;",
  c!"pub const NAS_PORT_TYPE_VIRTUAL: NasPortType = 5;",
  c!"pub const NAS_PORT_TYPE_PIAFS: NasPortType = 6;",
  c!"pub const NAS_PORT_TYPE_HDLC_CLEAR_CHANNEL: NasPortType = 7;",
  c!"pub const NAS_PORT_TYPE_X_25: NasPortType = 8;",
  c!"pub const NAS_PORT_TYPE_X_75: NasPortType = 9;",
  c!"pub const NAS_PORT_TYPE_G_3_FAX: NasPortType = 10;",
  c!"pub const NAS_PORT_TYPE_SDSL: NasPortType = 11;",
  c!"pub const NAS_PORT_TYPE_ADSL_CAP: NasPortType = 12;",
  c!"pub const NAS_PORT_TYPE_ADSL_DMT: NasPortType = 13;",
  c!"pub const NAS_PORT_TYPE_IDSL: NasPortType = 14;",
  c!"pub const NAS_PORT_TYPE_ETHERNET: NasPortType = 15;",
  c!"pub const NAS_PORT_TYPE_X_DSL: NasPortType = 16;",
  c!"pub const NAS_PORT_TYPE_CABLE: NasPortType = 17;",
  c!"pub const NAS_PORT_TYPE_WIRELESS_OTHER: NasPortType = 18;",
  c!"pub const NAS_PORT_TYPE_WIRELESS_802_11: NasPortType = 19;",
  c!"",
  c!"pub type ServiceType = u32;",
  c!"pub const SERVICE_TYPE_LOGIN_USER: ServiceType = 1;",
  c!"pub const SERVICE_TYPE_FRAMED_USER: ServiceType = 2;",
  c!"pub const SERVICE_TYPE_CALLBACK_LOGIN_USER: ServiceType = 3;",
  c!"pub const SERVICE_TYPE_CALLBACK_FRAMED_USER: ServiceType = 4;",
  c!"pub const SERVICE_TYPE_OUTBOUND_USER: ServiceType = 5;",
  c!"pub const SERVICE_TYPE_ADMINISTRATIVE_USER: ServiceType = 6;",
  c!"pub const SERVICE_TYPE_NAS_PROMPT_USER: ServiceType = 7;",
  c!"pub const SERVICE_TYPE_AUTHENTICATE_ONLY: ServiceType = 8;",
  c!"pub const SERVICE_TYPE_CALLBACK_NAS_PROMPT: ServiceType = 9;",
  c!"pub const SERVICE_TYPE_CALL_CHECK: ServiceType = 10;",
  c!"pub const SERVICE_TYPE_CALLBACK_ADMINISTRATIVE: ServiceType = 11;",
  c!"",
  c!"pub type TerminationAction = u32;",
  c!"pub const TERMINATION_ACTION_DEFAULT: TerminationAction = 0;",
  c!"pub const TERMINATION_ACTION_RADIUS_REQUEST: TerminationAction = 1;"]

/-- The lines of radius/src/core/rfc2865.rs (1-1250). -/
noncomputable def rfc2865Module : List Str :=
  rfc2865Module_0 ++ rfc2865Module_1 ++ rfc2865Module_2 ++ rfc2865Module_3 ++ rfc2865Module_4 ++ rfc2865Module_5 ++ rfc2865Module_6 ++ rfc2865Module_7 ++ rfc2865Module_8 ++ rfc2865Module_9 ++ rfc2865Module_10 ++ rfc2865Module_11 ++ rfc2865Module_12 ++ rfc2865Module_13 ++ rfc2865Module_14 ++ rfc2865Module_15 ++ rfc2865Module_16 ++ rfc2865Module_17 ++ rfc2865Module_18 ++ rfc2865Module_19 ++ rfc2865Module_20

noncomputable def rfc2866Module_0 : List Str := [
  c!"// Code generated by machine generator; DO NOT EDIT.",
  c!"",
  c!"//! Utility for rfc2866 packet.",
  c!"//!",
  c!"//! This module handles the packet according to the following definition:",
  c!"//! ```text",
  c!"//! //! # -*- text -*-",
  c!"//! # Copyright (C) 2020 The FreeRADIUS Server project and contributors",
  c!"//! # This work is licensed under CC-BY version 4.0 https://creativecommons.org/licenses/by/4.0",
  c!"//! # Version $Id$",
  c!"//! #",
  c!"//! #    Attributes and values defined in RFC 2866.",
  c!"//! #    http://www.ietf.org/rfc/rfc2866.txt",
  c!"//! #",
  c!"//! #    $Id$",
  c!"//! #",
  c!"//! ATTRIBUTE    Acct-Status-Type            40    integer",
  c!"//! ATTRIBUTE    Acct-Delay-Time                41    integer",
  c!"//! ATTRIBUTE    Acct-Input-Octets            42    integer",
  c!"//! ATTRIBUTE    Acct-Output-Octets            43    integer",
  c!"//! ATTRIBUTE    Acct-Session-Id                44    string",
  c!"//! ATTRIBUTE    Acct-Authentic                45    integer",
  c!"//! ATTRIBUTE    Acct-Session-Time            46    integer",
  c!"//! ATTRIBUTE    Acct-Input-Packets            47    integer",
  c!"//! ATTRIBUTE    Acct-Output-Packets            48    integer",
  c!"//! ATTRIBUTE    Acct-Terminate-Cause            49    integer",
  c!"//! ATTRIBUTE    Acct-Multi-Session-Id            50    string",
  c!"//! ATTRIBUTE    Acct-Link-Count                51    integer",
  c!"//!",
  c!"//! #    Accounting Status Types",
  c!"//!",
  c!"//! VALUE    Acct-Status-Type        Start            1",
  c!"//! VALUE    Acct-Status-Type        Stop            2",
  c!"//! VALUE    Acct-Status-Type        Alive            3   # dup",
  c!"//! VALUE    Acct-Status-Type        Interim-Update        3",
  c!"//! VALUE    Acct-Status-Type        Accounting-On        7",
  c!"//! VALUE    Acct-Status-Type        Accounting-Off        8",
  c!"//! VALUE    Acct-Status-Type        Failed            15",
  c!"//!",
  c!"//! #    Authentication Types",
  c!"//!",
  c!"//! VALUE    Acct-Authentic            RADIUS            1",
  c!"//! VALUE    Acct-Authentic            Local            2",
  c!"//! VALUE    Acct-Authentic            Remote            3",
  c!"//! VALUE    Acct-Authentic            Diameter        4",
  c!"//!",
  c!"//! #    Acct Terminate Causes",
  c!"//!",
  c!"//! VALUE    Acct-Terminate-Cause        User-Request        1",
  c!"//! VALUE    Acct-Terminate-Cause        Lost-Carrier        2",
  c!"//! VALUE    Acct-Terminate-Cause        Lost-Service        3",
  c!"//! VALUE    Acct-Terminate-Cause        Idle-Timeout        4",
  c!"//! VALUE    Acct-Terminate-Cause        Session-Timeout        5",
  c!"//! VALUE    Acct-Terminate-Cause        Admin-Reset        6",
  c!"//! VALUE    Acct-Terminate-Cause        Admin-Reboot        7",
  c!"//! VALUE    Acct-Terminate-Cause        Port-Error        8",
  c!"//! VALUE    Acct-Terminate-Cause        NAS-Error        9",
  c!"//! VALUE    Acct-Terminate-Cause        NAS-Request        10",
  c!"//! VALUE    Acct-Terminate-Cause        NAS-Reboot        11",
  c!"//! VALUE    Acct-Terminate-Cause        Port-Unneeded        12"]

noncomputable def rfc2866Module_1 : List Str := [
  c!"//! VALUE    Acct-Terminate-Cause        Port-Preempted        13",
  c!"//! VALUE    Acct-Terminate-Cause        Port-Suspended        14",
  c!"//! VALUE    Acct-Terminate-Cause        Service-Unavailable    15",
  c!"//! VALUE    Acct-Terminate-Cause        Callback        16",
  c!"//! VALUE    Acct-Terminate-Cause        User-Error        17",
  c!"//! VALUE    Acct-Terminate-Cause        Host-Request        18",
  c!"//! ```",
  c!"",
  c!"use crate::core::avp::{AVPError, AVPType, AVP};",
  c!"use crate::core::packet::Packet;",
  c!"",
  c!"pub const ACCT_STATUS_TYPE_TYPE: AVPType = 40;",
  c!"/// Delete all of `acct_status_type` values from a packet.",
  c!"pub fn delete_acct_status_type(packet: &mut Packet) {",
  c!"    packet.delete(ACCT_STATUS_TYPE_TYPE);",
  c!"}",
  c!"/// Add `acct_status_type` value-defined integer value to a packet.",
  c!"pub fn add_acct_status_type(packet: &mut Packet, value: AcctStatusType) {",
  c!"    packet.add(AVP::from_u32(ACCT_STATUS_TYPE_TYPE, value));",
  c!"}",
  c!"/// Lookup a `acct_status_type` value-defined integer value from a packet.",
  c!"///",
  c!"/// It returns the first looked up value. If there is no associated value with `acct_status_type`, it returns `None`.",
  c!"pub fn lookup_acct_status_type(packet: &Packet) -> Option<Result<AcctStatusType, AVPError>> {",
  c!"    packet",
  c!"        .lookup(ACCT_STATUS_TYPE_TYPE)",
  c!"        .map(|v| Ok(v.encode_u32()? as AcctStatusType))",
  c!"}",
  c!"/// Lookup all of the `acct_status_type` value-defined integer value from a packet.",
  c!"pub fn lookup_all_acct_status_type(packet: &Packet) -> Result<Vec<AcctStatusType>, AVPError> {",
  c!"    let mut vec = Vec::new();",
  c!"    for avp in packet.lookup_all(ACCT_STATUS_TYPE_TYPE) {",
  c!"        vec.push(avp.encode_u32()? as AcctStatusType)",
  c!"    }",
  c!"    Ok(vec)",
  c!"}",
  c!"",
  c!"pub const ACCT_DELAY_TIME_TYPE: AVPType = 41;",
  c!"/// Delete all of `acct_delay_time` values from a packet.",
  c!"pub fn delete_acct_delay_time(packet: &mut Packet) {",
  c!"    packet.delete(ACCT_DELAY_TIME_TYPE);",
  c!"}",
  c!"/// Add `acct_delay_time` integer value to a packet.",
  c!"pub fn add_acct_delay_time(packet: &mut Packet, value: u32) {",
  c!"    packet.add(AVP::from_u32(ACCT_DELAY_TIME_TYPE, value));",
  c!"}",
  c!"/// Lookup a `acct_delay_time` integer value from a packet.",
  c!"///",
  c!"/// It returns the first looked up value. If there is no associated value with `acct_delay_time`, it returns `None`.",
  c!"pub fn lookup_acct_delay_time(packet: &Packet) -> Option<Result<u32, AVPError>> {",
  c!"    packet.lookup(ACCT_DELAY_TIME_TYPE).map(|v| v.encode_u32())",
  c!"}",
  c!"/// Lookup all of the `acct_delay_time` integer value from a packet.",
  c!"pub fn lookup_all_acct_delay_time(packet: &Packet) -> Result<Vec<u32>, AVPError> {",
  c!"    let mut vec = Vec::new();",
  c!"    for avp in packet.lookup_all(ACCT_DELAY_TIME_TYPE) {",
  c!"        vec.push(avp.encode_u32()?)",
  c!"    }",
  c!"    Ok(vec)",
  c!"}"]

noncomputable def rfc2866Module_2 : List Str := [
  c!"",
  c!"pub const ACCT_INPUT_OCTETS_TYPE: AVPType = 42;",
  c!"/// Delete all of `acct_input_octets` values from a packet.",
  c!"pub fn delete_acct_input_octets(packet: &mut Packet) {",
  c!"    packet.delete(ACCT_INPUT_OCTETS_TYPE);",
  c!"}",
  c!"/// Add `acct_input_octets` integer value to a packet.",
  c!"pub fn add_acct_input_octets(packet: &mut Packet, value: u32) {",
  c!"    packet.add(AVP::from_u32(ACCT_INPUT_OCTETS_TYPE, value));",
  c!"}",
  c!"/// Lookup a `acct_input_octets` integer value from a packet.",
  c!"///",
  c!"/// It returns the first looked up value. If there is no associated value with `acct_input_octets`, it returns `None`.",
  c!"pub fn lookup_acct_input_octets(packet: &Packet) -> Option<Result<u32, AVPError>> {",
  c!"    packet",
  c!"        .lookup(ACCT_INPUT_OCTETS_TYPE)",
  c!"        .map(|v| v.encode_u32())",
  c!"}",
  c!"/// Lookup all of the `acct_input_octets` integer value from a packet.",
  c!"pub fn lookup_all_acct_input_octets(packet: &Packet) -> Result<Vec<u32>, AVPError> {",
  c!"    let mut vec = Vec::new();",
  c!"    for avp in packet.lookup_all(ACCT_INPUT_OCTETS_TYPE) {",
  c!"        vec.push(avp.encode_u32()?)",
  c!"    }",
  c!"    Ok(vec)",
  c!"}",
  c!"",
  c!"pub const ACCT_OUTPUT_OCTETS_TYPE: AVPType = 43;",
  c!"/// Delete all of `acct_output_octets` values from a packet.",
  c!"pub fn delete_acct_output_octets(packet: &mut Packet) {",
  c!"    packet.delete(ACCT_OUTPUT_OCTETS_TYPE);",
  c!"}",
  c!"/// Add `acct_output_octets` integer value to a packet.",
  c!"pub fn add_acct_output_octets(packet: &mut Packet, value: u32) {",
  c!"    packet.add(AVP::from_u32(ACCT_OUTPUT_OCTETS_TYPE, value));",
  c!"}",
  c!"/// Lookup a `acct_output_octets` integer value from a packet.",
  c!"///",
  c!"/// It returns the first looked up value. If there is no associated value with `acct_output_octets`, it returns `None`.",
  c!"pub fn lookup_acct_output_octets(packet: &Packet) -> Option<Result<u32, AVPError>> {",
  c!"    packet",
  c!"        .lookup(ACCT_OUTPUT_OCTETS_TYPE)",
  c!"        .map(|v| v.encode_u32())",
  c!"}",
  c!"/// Lookup all of the `acct_output_octets` integer value from a packet.",
  c!"pub fn lookup_all_acct_output_octets(packet: &Packet) -> Result<Vec<u32>, AVPError> {",
  c!"    let mut vec = Vec::new();",
  c!"    for avp in packet.lookup_all(ACCT_OUTPUT_OCTETS_TYPE) {",
  c!"        vec.push(avp.encode_u32()?)",
  c!"    }",
  c!"    Ok(vec)",
  c!"}",
  c!"",
  c!"pub const ACCT_SESSION_ID_TYPE: AVPType = 44;",
  c!"/// Delete all of `acct_session_id` values from a packet.",
  c!"pub fn delete_acct_session_id(packet: &mut Packet) {",
  c!"    packet.delete(ACCT_SESSION_ID_TYPE);",
  c!"}",
  c!"/// Add `acct_session_id` string value to a packet.",
  c!"pub fn add_acct_session_id(packet: &mut Packet, value: &str) {"]

noncomputable def rfc2866Module_3 : List Str := [
  c!"    packet.add(AVP::from_string(ACCT_SESSION_ID_TYPE, value));",
  c!"}",
  c!"/// Lookup a `acct_session_id` string value from a packet.",
  c!"///",
  c!"/// It returns the first looked up value. If there is no associated value with `acct_session_id`, it returns `None`.",
  c!"pub fn lookup_acct_session_id(packet: &Packet) -> Option<Result<String, AVPError>> {",
  c!"    packet",
  c!"        .lookup(ACCT_SESSION_ID_TYPE)",
  c!"        .map(|v| v.encode_string())",
  c!"}",
  c!"/// Lookup all of the `acct_session_id` string value from a packet.",
  c!"pub fn lookup_all_acct_session_id(packet: &Packet) -> Result<Vec<String>, AVPError> {",
  c!"    let mut vec = Vec::new();",
  c!"    for avp in packet.lookup_all(ACCT_SESSION_ID_TYPE) {",
  c!"        vec.push(avp.encode_string()?)",
  c!"    }",
  c!"    Ok(vec)",
  c!"}",
  c!"",
  c!"pub const ACCT_AUTHENTIC_TYPE: AVPType = 45;",
  c!"/// Delete all of `acct_authentic` values from a packet.",
  c!"pub fn delete_acct_authentic(packet: &mut Packet) {",
  c!"    packet.delete(ACCT_AUTHENTIC_TYPE);",
  c!"}",
  c!"/// Add `acct_authentic` value-defined integer value to a packet.",
  c!"pub fn add_acct_authentic(packet: &mut Packet, value: AcctAuthentic) {",
  c!"    packet.add(AVP::from_u32(ACCT_AUTHENTIC_TYPE, value));",
  c!"}",
  c!"/// Lookup a `acct_authentic` value-defined integer value from a packet.",
  c!"///",
  c!"/// It returns the first looked up value. If there is no associated value with `acct_authentic`, it returns `None`.",
  c!"pub fn lookup_acct_authentic(packet: &Packet) -> Option<Result<AcctAuthentic, AVPError>> {",
  c!"    packet",
  c!"        .lookup(ACCT_AUTHENTIC_TYPE)",
  c!"        .map(|v| Ok(v.encode_u32()? as AcctAuthentic))",
  c!"}",
  c!"/// Lookup all of the `acct_authentic` value-defined integer value from a packet.",
  c!"pub fn lookup_all_acct_authentic(packet: &Packet) -> Result<Vec<AcctAuthentic>, AVPError> {",
  c!"    let mut vec = Vec::new();",
  c!"    for avp in packet.lookup_all(ACCT_AUTHENTIC_TYPE) {",
  c!"        vec.push(avp.encode_u32()? as AcctAuthentic)",
  c!"    }",
  c!"    Ok(vec)",
  c!"}",
  c!"",
  c!"pub const ACCT_SESSION_TIME_TYPE: AVPType = 46;",
  c!"/// Delete all of `acct_session_time` values from a packet.",
  c!"pub fn delete_acct_session_time(packet: &mut Packet) {",
  c!"    packet.delete(ACCT_SESSION_TIME_TYPE);",
  c!"}",
  c!"/// Add `acct_session_time` integer value to a packet.",
  c!"pub fn add_acct_session_time(packet: &mut Packet, value: u32) {",
  c!"    packet.add(AVP::from_u32(ACCT_SESSION_TIME_TYPE, value));",
  c!"}",
  c!"/// Lookup a `acct_session_time` integer value from a packet.",
  c!"///",
  c!"/// It returns the first looked up value. If there is no associated value with `acct_session_time`, it returns `None`.",
  c!"pub fn lookup_acct_session_time(packet: &Packet) -> Option<Result<u32, AVPError>> {",
  c!"    packet",
  c!"        .lookup(ACCT_SESSION_TIME_TYPE)"]

noncomputable def rfc2866Module_4 : List Str := [
  c!"        .map(|v| v.encode_u32())",
  c!"}",
  c!"/// Lookup all of the `acct_session_time` integer value from a packet.",
  c!"pub fn lookup_all_acct_session_time(packet: &Packet) -> Result<Vec<u32>, AVPError> {",
  c!"    let mut vec = Vec::new();",
  c!"    for avp in packet.lookup_all(ACCT_SESSION_TIME_TYPE) {",
  c!"        vec.push(avp.encode_u32()?)",
  c!"    }",
  c!"    Ok(vec)",
  c!"}",
  c!"",
  c!"pub const ACCT_INPUT_PACKETS_TYPE: AVPType = 47;",
  c!"/// Delete all of `acct_input_packets` values from a packet.",
  c!"pub fn delete_acct_input_packets(packet: &mut Packet) {",
  c!"    packet.delete(ACCT_INPUT_PACKETS_TYPE);",
  c!"}",
  c!"/// Add `acct_input_packets` integer value to a packet.",
  c!"pub fn add_acct_input_packets(packet: &mut Packet, value: u32) {",
  c!"    packet.add(AVP::from_u32(ACCT_INPUT_PACKETS_TYPE, value));",
  c!"}",
  c!"/// Lookup a `acct_input_packets` integer value from a packet.",
  c!"///",
  c!"/// It returns the first looked up value. If there is no associated value with `acct_input_packets`, it returns `None`.",
  c!"pub fn lookup_acct_input_packets(packet: &Packet) -> Option<Result<u32, AVPError>> {",
  c!"    packet",
  c!"        .lookup(ACCT_INPUT_PACKETS_TYPE)",
  c!"        .map(|v| v.encode_u32())",
  c!"}",
  c!"/// Lookup all of the `acct_input_packets` integer value from a packet.",
  c!"pub fn lookup_all_acct_input_packets(packet: &Packet) -> Result<Vec<u32>, AVPError> {",
  c!"    let mut vec = Vec::new();",
  c!"    for avp in packet.lookup_all(ACCT_INPUT_PACKETS_TYPE) {",
  c!"        vec.push(avp.encode_u32()?)",
  c!"    }",
  c!"    Ok(vec)",
  c!"}",
  c!"",
  c!"pub const ACCT_OUTPUT_PACKETS_TYPE: AVPType = 48;",
  c!"/// Delete all of `acct_output_packets` values from a packet.",
  c!"pub fn delete_acct_output_packets(packet: &mut Packet) {",
  c!"    packet.delete(ACCT_OUTPUT_PACKETS_TYPE);",
  c!"}",
  c!"/// Add `acct_output_packets` integer value to a packet.",
  c!"pub fn add_acct_output_packets(packet: &mut Packet, value: u32) {",
  c!"    packet.add(AVP::from_u32(ACCT_OUTPUT_PACKETS_TYPE, value));",
  c!"}",
  c!"/// Lookup a `acct_output_packets` integer value from a packet.",
  c!"///",
  c!"/// It returns the first looked up value. If there is no associated value with `acct_output_packets`, it returns `None`.",
  c!"pub fn lookup_acct_output_packets(packet: &Packet) -> Option<Result<u32, AVPError>> {",
  c!"    packet",
  c!"        .lookup(ACCT_OUTPUT_PACKETS_TYPE)",
  c!"        .map(|v| v.encode_u32())",
  c!"}",
  c!"/// Lookup all of the `acct_output_packets` integer value from a packet.",
  c!"pub fn lookup_all_acct_output_packets(packet: &Packet) -> Result<Vec<u32>, AVPError> {",
  c!"    let mut vec = Vec::new();",
  c!"    for avp in packet.lookup_all(ACCT_OUTPUT_PACKETS_TYPE) {",
  c!"        vec.push(avp.encode_u32()?)",
  c!"    }"]

noncomputable def rfc2866Module_5 : List Str := [
  c!"    Ok(vec)",
  c!"}",
  c!"",
  c!"pub const ACCT_TERMINATE_CAUSE_TYPE: AVPType = 49;",
  c!"/// Delete all of `acct_terminate_cause` values from a packet.",
  c!"pub fn delete_acct_terminate_cause(packet: &mut Packet) {",
  c!"    packet.delete(ACCT_TERMINATE_CAUSE_TYPE);",
  c!"}",
  c!"/// Add `acct_terminate_cause` value-defined integer value to a packet.",
  c!"pub fn add_acct_terminate_cause(packet: &mut Packet, value: AcctTerminateCause) {",
  c!"    packet.add(AVP::from_u32(ACCT_TERMINATE_CAUSE_TYPE, value));",
  c!"}",
  c!"/// Lookup a `acct_terminate_cause` value-defined integer value from a packet.",
  c!"///",
  c!"/// It returns the first looked up value. If there is no associated value with `acct_terminate_cause`, it returns `None`.",
  c!"pub fn lookup_acct_terminate_cause(",
  c!"    packet: &Packet,",
  c!") -> Option<Result<AcctTerminateCause, AVPError>> {",
  c!"    packet",
  c!"        .lookup(ACCT_TERMINATE_CAUSE_TYPE)",
  c!"        .map(|v| Ok(v.encode_u32()? as AcctTerminateCause))",
  c!"}",
  c!"/// Lookup all of the `acct_terminate_cause` value-defined integer value from a packet.",
  c!"pub fn lookup_all_acct_terminate_cause(",
  c!"    packet: &Packet,",
  c!") -> Result<Vec<AcctTerminateCause>, AVPError> {",
  c!"    let mut vec = Vec::new();",
  c!"    for avp in packet.lookup_all(ACCT_TERMINATE_CAUSE_TYPE) {",
  c!"        vec.push(avp.encode_u32()? as AcctTerminateCause)",
  c!"    }",
  c!"    Ok(vec)",
  c!"}",
  c!"",
  c!"pub const ACCT_MULTI_SESSION_ID_TYPE: AVPType = 50;",
  c!"/// Delete all of `acct_multi_session_id` values from a packet.",
  c!"pub fn delete_acct_multi_session_id(packet: &mut Packet) {",
  c!"    packet.delete(ACCT_MULTI_SESSION_ID_TYPE);",
  c!"}",
  c!"/// Add `acct_multi_session_id` string value to a packet.",
  c!"pub fn add_acct_multi_session_id(packet: &mut Packet, value: &str) {",
  c!"    packet.add(AVP::from_string(ACCT_MULTI_SESSION_ID_TYPE, value));",
  c!"}",
  c!"/// Lookup a `acct_multi_session_id` string value from a packet.",
  c!"///",
  c!"/// It returns the first looked up value. If there is no associated value with `acct_multi_session_id`, it returns `None`.",
  c!"pub fn lookup_acct_multi_session_id(packet: &Packet) -> Option<Result<String, AVPError>> {",
  c!"    packet",
  c!"        .lookup(ACCT_MULTI_SESSION_ID_TYPE)",
  c!"        .map(|v| v.encode_string())",
  c!"}",
  c!"/// Lookup all of the `acct_multi_session_id` string value from a packet.",
  c!"pub fn lookup_all_acct_multi_session_id(packet: &Packet) -> Result<Vec<String>, AVPError> {",
  c!"    let mut vec = Vec::new();",
  c!"    for avp in packet.lookup_all(ACCT_MULTI_SESSION_ID_TYPE) {",
  c!"        vec.push(avp.encode_string()?)",
  c!"    }",
  c!"    Ok(vec)",
  c!"}",
  c!"",
  c!"pub const ACCT_LINK_COUNT_TYPE: AVPType = 51;"]

noncomputable def rfc2866Module_6 : List Str := [
  c!"/// Delete all of `acct_link_count` values from a packet.",
  c!"pub fn delete_acct_link_count(packet: &mut Packet) {",
  c!"    packet.delete(ACCT_LINK_COUNT_TYPE);",
  c!"}",
  c!"/// Add `acct_link_count` integer value to a packet.",
  c!"pub fn add_acct_link_count(packet: &mut Packet, value: u32) {",
  c!"    packet.add(AVP::from_u32(ACCT_LINK_COUNT_TYPE, value));",
  c!"}",
  c!"/// Lookup a `acct_link_count` integer value from a packet.",
  c!"///",
  c!"/// It returns the first looked up value. If there is no associated value with `acct_link_count`, it returns `None`.",
  c!"pub fn lookup_acct_link_count(packet: &Packet) -> Option<Result<u32, AVPError>> {",
  c!"    packet.lookup(ACCT_LINK_COUNT_TYPE).map(|v| v.encode_u32())",
  c!"}",
  c!"/// Lookup all of the `acct_link_count` integer value from a packet.",
  c!"pub fn lookup_all_acct_link_count(packet: &Packet) -> Result<Vec<u32>, AVPError> {",
  c!"    let mut vec = Vec::new();",
  c!"    for avp in packet.lookup_all(ACCT_LINK_COUNT_TYPE) {",
  c!"        vec.push(avp.encode_u32()?)",
  c!"    }",
  c!"    Ok(vec)",
  c!"}",
  c!"",
  c!"pub type AcctAuthentic = u32;",
  c!"pub const ACCT_AUTHENTIC_RADIUS: AcctAuthentic = 1;",
  c!"pub const ACCT_AUTHENTIC_LOCAL: AcctAuthentic = 2;",
  c!"pub const ACCT_AUTHENTIC_REMOTE: AcctAuthentic = 3;",
  c!"pub const ACCT_AUTHENTIC_DIAMETER: AcctAuthentic = 4;",
  c!"",
  c!"pub type AcctStatusType = u32;",
  c!"pub const ACCT_STATUS_TYPE_START: AcctStatusType = 1;",
  c!"pub const ACCT_STATUS_TYPE_STOP: AcctStatusType = 2;",
  c!"pub const ACCT_STATUS_TYPE_ALIVE: AcctStatusType = 3;",
  c!"pub const ACCT_STATUS_TYPE_INTERIM_UPDATE: AcctStatusType = 3;",
  c!"pub const ACCT_STATUS_TYPE_ACCOUNTING_ON: AcctStatusType = 7;",
  c!"pub const ACCT_STATUS_TYPE_ACCOUNTING_OFF: AcctStatusType = 8;",
  c!"pub const ACCT_STATUS_TYPE_FAILED: AcctStatusType = 15;",
  c!"",
  c!"pub type AcctTerminateCause = u32;",
  c!"pub const ACCT_TERMINATE_CAUSE_USER_REQUEST: AcctTerminateCause = 1;",
  c!"pub const ACCT_TERMINATE_CAUSE_LOST_CARRIER: AcctTerminateCause = 2;",
  c!"pub const ACCT_TERMINATE_CAUSE_LOST_SERVICE: AcctTerminateCause = 3;",
  c!"pub const ACCT_TERMINATE_CAUSE_IDLE_TIMEOUT: AcctTerminateCause = 4;",
  c!"pub const ACCT_TERMINATE_CAUSE_SESSION_TIMEOUT: AcctTerminateCause = 5;",
  c!"pub const ACCT_TERMINATE_CAUSE_ADMIN_RESET: AcctTerminateCause = 6;",
  c!"pub const ACCT_TERMINATE_CAUSE_ADMIN_REBOOT: AcctTerminateCause = 7;",
  c!"pub const ACCT_TERMINATE_CAUSE_PORT_ERROR: AcctTerminateCause = 8;",
  c!"pub const ACCT_TERMINATE_CAUSE_NAS_ERROR: AcctTerminateCause = 9;",
  c!"pub const ACCT_TERMINATE_CAUSE_NAS_REQUEST: AcctTerminateCause = 10;",
  c!"pub const ACCT_TERMINATE_CAUSE_NAS_REBOOT: AcctTerminateCause = 11;",
  c!"pub const ACCT_TERMINATE_CAUSE_PORT_UNNEEDED: AcctTerminateCause = 12;",
  c!"pub const ACCT_TERMINATE_CAUSE_PORT_PREEMPTED: AcctTerminateCause = 13;",
  c!"pub const ACCT_TERMINATE_CAUSE_PORT_SUSPENDED: AcctTerminateCause = 14;",
  c!"pub const ACCT_TERMINATE_CAUSE_SERVICE_UNAVAILABLE: AcctTerminateCause = 15;",
  c!"pub const ACCT_TERMINATE_CAUSE_CALLBACK: AcctTerminateCause = 16;",
  c!"pub const ACCT_TERMINATE_CAUSE_USER_ERROR: AcctTerminateCause = 17;",
  c!"pub const ACCT_TERMINATE_CAUSE_HOST_REQUEST: AcctTerminateCause = 18;"]

/-- The lines of radius/src/core/rfc2866.rs (1-417). -/
noncomputable def rfc2866Module : List Str :=
  rfc2866Module_0 ++ rfc2866Module_1 ++ rfc2866Module_2 ++ rfc2866Module_3 ++ rfc2866Module_4 ++ rfc2866Module_5 ++ rfc2866Module_6

noncomputable def rfc2867Module_0 : List Str := [
  c!"// Code generated by machine generator; DO NOT EDIT.",
  c!"",
  c!"//! Utility for rfc2867 packet.",
  c!"//!",
  c!"//! This module handles the packet according to the following definition:",
  c!"//! ```text",
  c!"//! //! # -*- text -*-",
  c!"//! # Copyright (C) 2020 The FreeRADIUS Server project and contributors",
  c!"//! # This work is licensed under CC-BY version 4.0 https://creativecommons.org/licenses/by/4.0",
  c!"//! # Version $Id$",
  c!"//! #",
  c!"//! #    Attributes and values defined in RFC 2867.",
  c!"//! #    http://www.ietf.org/rfc/rfc2867.txt",
  c!"//! #",
  c!"//! #    $Id$",
  c!"//! #",
  c!"//! ATTRIBUTE    Acct-Tunnel-Connection            68    string",
  c!"//! ATTRIBUTE    Acct-Tunnel-Packets-Lost        86    integer",
  c!"//!",
  c!"//! VALUE    Acct-Status-Type        Tunnel-Start        9",
  c!"//! VALUE    Acct-Status-Type        Tunnel-Stop        10",
  c!"//! VALUE    Acct-Status-Type        Tunnel-Reject        11",
  c!"//! VALUE    Acct-Status-Type        Tunnel-Link-Start    12",
  c!"//! VALUE    Acct-Status-Type        Tunnel-Link-Stop    13",
  c!"//! VALUE    Acct-Status-Type        Tunnel-Link-Reject    14",
  c!"//! ```",
  c!"",
  c!"use crate::core::avp::{AVPError, AVPType, AVP};",
  c!"use crate::core::packet::Packet;",
  c!"",
  c!"use crate::core::rfc2866;",
  c!"",
  c!"pub const ACCT_TUNNEL_CONNECTION_TYPE: AVPType = 68;",
  c!"/// Delete all of `acct_tunnel_connection` values from a packet.",
  c!"pub fn delete_acct_tunnel_connection(packet: &mut Packet) {",
  c!"    packet.delete(ACCT_TUNNEL_CONNECTION_TYPE);",
  c!"}",
  c!"/// Add `acct_tunnel_connection` string value to a packet.",
  c!"pub fn add_acct_tunnel_connection(packet: &mut Packet, value: &str) {",
  c!"    packet.add(AVP::from_string(ACCT_TUNNEL_CONNECTION_TYPE, value));",
  c!"}",
  c!"/// Lookup a `acct_tunnel_connection` string value from a packet.",
  c!"///",
  c!"/// It returns the first looked up value. If there is no associated value with `acct_tunnel_connection`, it returns `None`.",
  c!"pub fn lookup_acct_tunnel_connection(packet: &Packet) -> Option<Result<String, AVPError>> {",
  c!"    packet",
  c!"        .lookup(ACCT_TUNNEL_CONNECTION_TYPE)",
  c!"        .map(|v| v.encode_string())",
  c!"}",
  c!"/// Lookup all of the `acct_tunnel_connection` string value from a packet.",
  c!"pub fn lookup_all_acct_tunnel_connection(packet: &Packet) -> Result<Vec<String>, AVPError> {",
  c!"    let mut vec = Vec::new();",
  c!"    for avp in packet.lookup_all(ACCT_TUNNEL_CONNECTION_TYPE) {",
  c!"        vec.push(avp.encode_string()?)",
  c!"    }",
  c!"    Ok(vec)",
  c!"}",
  c!"",
  c!"pub const ACCT_TUNNEL_PACKETS_LOST_TYPE: AVPType = 86;",
  c!"/// Delete all of `acct_tunnel_packets_lost` values from a packet."]

noncomputable def rfc2867Module_1 : List Str := [
  c!"pub fn delete_acct_tunnel_packets_lost(packet: &mut Packet) {",
  c!"    packet.delete(ACCT_TUNNEL_PACKETS_LOST_TYPE);",
  c!"}",
  c!"/// Add `acct_tunnel_packets_lost` integer value to a packet.",
  c!"pub fn add_acct_tunnel_packets_lost(packet: &mut Packet, value: u32) {",
  c!"    packet.add(AVP::from_u32(ACCT_TUNNEL_PACKETS_LOST_TYPE, value));",
  c!"}",
  c!"/// Lookup a `acct_tunnel_packets_lost` integer value from a packet.",
  c!"///",
  c!"/// It returns the first looked up value. If there is no associated value with `acct_tunnel_packets_lost`, it returns `None`.",
  c!"pub fn lookup_acct_tunnel_packets_lost(packet: &Packet) -> Option<Result<u32, AVPError>> {",
  c!"    packet",
  c!"        .lookup(ACCT_TUNNEL_PACKETS_LOST_TYPE)",
  c!"        .map(|v| v.encode_u32())",
  c!"}",
  c!"/// Lookup all of the `acct_tunnel_packets_lost` integer value from a packet.",
  c!"pub fn lookup_all_acct_tunnel_packets_lost(packet: &Packet) -> Result<Vec<u32>, AVPError> {",
  c!"    let mut vec = Vec::new();",
  c!"    for avp in packet.lookup_all(ACCT_TUNNEL_PACKETS_LOST_TYPE) {",
  c!"        vec.push(avp.encode_u32()?)",
  c!"    }",
  c!"    Ok(vec)",
  c!"}",
  c!"pub const ACCT_STATUS_TYPE_TUNNEL_START: rfc2866::AcctStatusType = 9;",
  c!"pub const ACCT_STATUS_TYPE_TUNNEL_STOP: rfc2866::AcctStatusType = 10;",
  c!"pub const ACCT_STATUS_TYPE_TUNNEL_REJECT: rfc2866::AcctStatusType = 11;",
  c!"pub const ACCT_STATUS_TYPE_TUNNEL_LINK_START: rfc2866::AcctStatusType = 12;",
  c!"pub const ACCT_STATUS_TYPE_TUNNEL_LINK_STOP: rfc2866::AcctStatusType = 13;",
  c!"pub const ACCT_STATUS_TYPE_TUNNEL_LINK_REJECT: rfc2866::AcctStatusType = 14;"]

/-- The lines of radius/src/core/rfc2867.rs (1-89). -/
noncomputable def rfc2867Module : List Str :=
  rfc2867Module_0 ++ rfc2867Module_1

noncomputable def rfc2868Module_0 : List Str := [
  c!"// Code generated by machine generator; DO NOT EDIT.",
  c!"",
  c!"//! Utility for rfc2868 packet.",
  c!"//!",
  c!"//! This module handles the packet according to the following definition:",
  c!"//! ```text",
  c!"//! //! # -*- text -*-",
  c!"//! # Copyright (C) 2020 The FreeRADIUS Server project and contributors",
  c!"//! # This work is licensed under CC-BY version 4.0 https://creativecommons.org/licenses/by/4.0",
  c!"//! # Version $Id$",
  c!"//! #",
  c!"//! #    Attributes and values defined in RFC 2868.",
  c!"//! #    http://www.ietf.org/rfc/rfc2868.txt",
  c!"//! #",
  c!"//! #    $Id$",
  c!"//! #",
  c!"//! ATTRIBUTE    Tunnel-Type                64    integer    has_tag",
  c!"//! ATTRIBUTE    Tunnel-Medium-Type            65    integer    has_tag",
  c!"//! ATTRIBUTE    Tunnel-Client-Endpoint            66    string    has_tag",
  c!"//! ATTRIBUTE    Tunnel-Server-Endpoint            67    string    has_tag",
  c!"//!",
  c!"//! ATTRIBUTE    Tunnel-Password                69    string    has_tag,encrypt=2",
  c!"//!",
  c!"//! ATTRIBUTE    Tunnel-Private-Group-Id            81    string    has_tag",
  c!"//! ATTRIBUTE    Tunnel-Assignment-Id            82    string    has_tag",
  c!"//! ATTRIBUTE    Tunnel-Preference            83    integer    has_tag",
  c!"//!",
  c!"//! ATTRIBUTE    Tunnel-Client-Auth-Id            90    string    has_tag",
  c!"//! ATTRIBUTE    Tunnel-Server-Auth-Id            91    string    has_tag",
  c!"//!",
  c!"//! #    Tunnel Type",
  c!"//!",
  c!"//! VALUE    Tunnel-Type            PPTP            1",
  c!"//! VALUE    Tunnel-Type            L2F            2",
  c!"//! VALUE    Tunnel-Type            L2TP            3",
  c!"//! VALUE    Tunnel-Type            ATMP            4",
  c!"//! VALUE    Tunnel-Type            VTP            5",
  c!"//! VALUE    Tunnel-Type            AH            6",
  c!"//! VALUE    Tunnel-Type            IP            7",
  c!"//! VALUE    Tunnel-Type            MIN-IP            8",
  c!"//! VALUE    Tunnel-Type            ESP            9",
  c!"//! VALUE    Tunnel-Type            GRE            10",
  c!"//! VALUE    Tunnel-Type            DVS            11",
  c!"//! VALUE    Tunnel-Type            IP-in-IP        12",
  c!"//!",
  c!"//! #    Tunnel Medium Type",
  c!"//!",
  c!"//! VALUE    Tunnel-Medium-Type        IP            1",
  c!"//! VALUE    Tunnel-Medium-Type        IPv4            1",
  c!"//! VALUE    Tunnel-Medium-Type        IPv6            2",
  c!"//! VALUE    Tunnel-Medium-Type        NSAP            3",
  c!"//! VALUE    Tunnel-Medium-Type        HDLC            4",
  c!"//! VALUE    Tunnel-Medium-Type        BBN-1822        5",
  c!"//! VALUE    Tunnel-Medium-Type        IEEE-802        6",
  c!"//! VALUE    Tunnel-Medium-Type        E.163            7",
  c!"//! VALUE    Tunnel-Medium-Type        E.164            8",
  c!"//! VALUE    Tunnel-Medium-Type        F.69            9",
  c!"//! VALUE    Tunnel-Medium-Type        X.121            10",
  c!"//! VALUE    Tunnel-Medium-Type        IPX            11",
  c!"//! VALUE    Tunnel-Medium-Type        Appletalk        12"]

noncomputable def rfc2868Module_1 : List Str := [
  c!"//! VALUE    Tunnel-Medium-Type        DecNet-IV        13",
  c!"//! VALUE    Tunnel-Medium-Type        Banyan-Vines        14",
  c!"//! VALUE    Tunnel-Medium-Type        E.164-NSAP        15",
  c!"//! ```",
  c!"",
  c!"use crate::core::avp::{AVPError, AVPType, AVP};",
  c!"use crate::core::packet::Packet;",
  c!"use crate::core::tag::Tag;",
  c!"",
  c!"pub const TUNNEL_TYPE_TYPE: AVPType = 64;",
  c!"/// Delete all of `tunnel_type` values from a packet.",
  c!"pub fn delete_tunnel_type(packet: &mut Packet) {",
  c!"    packet.delete(TUNNEL_TYPE_TYPE);",
  c!"}",
  c!"/// Add `tunnel_type` tagged value-defined integer value to a packet.",
  c!"pub fn add_tunnel_type(packet: &mut Packet, tag: Option<&Tag>, value: TunnelType) {",
  c!"    packet.add(AVP::from_tagged_u32(TUNNEL_TYPE_TYPE, tag, value));",
  c!"}",
  c!"/// Lookup a `tunnel_type` tagged value-defined integer value from a packet.",
  c!"///",
  c!"/// It returns the first looked up value. If there is no associated value with `tunnel_type`, it returns `None`.",
  c!"pub fn lookup_tunnel_type(packet: &Packet) -> Option<Result<(TunnelType, Tag), AVPError>> {",
  c!"    packet.lookup(TUNNEL_TYPE_TYPE).map(|v| {",
  c!"        let (v, t) = v.encode_tagged_u32()?;",
  c!"        Ok((v as TunnelType, t))",
  c!"    })",
  c!"}",
  c!"/// Lookup all of the `tunnel_type` tagged value-defined integer value from a packet.",
  c!"pub fn lookup_all_tunnel_type(packet: &Packet) -> Result<Vec<(TunnelType, Tag)>, AVPError> {",
  c!"    let mut vec = Vec::new();",
  c!"    for avp in packet.lookup_all(TUNNEL_TYPE_TYPE) {",
  c!"        let (v, t) = avp.encode_tagged_u32()?;",
  c!"        vec.push((v as TunnelType, t))",
  c!"    }",
  c!"    Ok(vec)",
  c!"}",
  c!"",
  c!"pub const TUNNEL_MEDIUM_TYPE_TYPE: AVPType = 65;",
  c!"/// Delete all of `tunnel_medium_type` values from a packet.",
  c!"pub fn delete_tunnel_medium_type(packet: &mut Packet) {",
  c!"    packet.delete(TUNNEL_MEDIUM_TYPE_TYPE);",
  c!"}",
  c!"/// Add `tunnel_medium_type` tagged value-defined integer value to a packet.",
  c!"pub fn add_tunnel_medium_type(packet: &mut Packet, tag: Option<&Tag>, value: TunnelMediumType) {",
  c!"    packet.add(AVP::from_tagged_u32(TUNNEL_MEDIUM_TYPE_TYPE, tag, value));",
  c!"}",
  c!"/// Lookup a `tunnel_medium_type` tagged value-defined integer value from a packet.",
  c!"///",
  c!"/// It returns the first looked up value. If there is no associated value with `tunnel_medium_type`, it returns `None`.",
  c!"pub fn lookup_tunnel_medium_type(",
  c!"    packet: &Packet,",
  c!") -> Option<Result<(TunnelMediumType, Tag), AVPError>> {",
  c!"    packet.lookup(TUNNEL_MEDIUM_TYPE_TYPE).map(|v| {",
  c!"        let (v, t) = v.encode_tagged_u32()?;",
  c!"        Ok((v as TunnelMediumType, t))",
  c!"    })",
  c!"}",
  c!"/// Lookup all of the `tunnel_medium_type` tagged value-defined integer value from a packet.",
  c!"pub fn lookup_all_tunnel_medium_type(",
  c!"    packet: &Packet,"]

noncomputable def rfc2868Module_2 : List Str := [
  c!") -> Result<Vec<(TunnelMediumType, Tag)>, AVPError> {",
  c!"    let mut vec = Vec::new();",
  c!"    for avp in packet.lookup_all(TUNNEL_MEDIUM_TYPE_TYPE) {",
  c!"        let (v, t) = avp.encode_tagged_u32()?;",
  c!"        vec.push((v as TunnelMediumType, t))",
  c!"    }",
  c!"    Ok(vec)",
  c!"}",
  c!"",
  c!"pub const TUNNEL_CLIENT_ENDPOINT_TYPE: AVPType = 66;",
  c!"/// Delete all of `tunnel_client_endpoint` values from a packet.",
  c!"pub fn delete_tunnel_client_endpoint(packet: &mut Packet) {",
  c!"    packet.delete(TUNNEL_CLIENT_ENDPOINT_TYPE);",
  c!"}",
  c!"/// Add `tunnel_client_endpoint` tagged string value to a packet.",
  c!"pub fn add_tunnel_client_endpoint(packet: &mut Packet, tag: Option<&Tag>, value: &str) {",
  c!"    packet.add(AVP::from_tagged_string(",
  c!"        TUNNEL_CLIENT_ENDPOINT_TYPE,",
  c!"        tag,",
  c!"        value,",
  c!"    ));",
  c!"}",
  c!"/// Lookup a `tunnel_client_endpoint` tagged string value from a packet.",
  c!"///",
  c!"/// It returns the first looked up value. If there is no associated value with `tunnel_client_endpoint`, it returns `None`.",
  c!"pub fn lookup_tunnel_client_endpoint(",
  c!"    packet: &Packet,",
  c!") -> Option<Result<(String, Option<Tag>), AVPError>> {",
  c!"    packet",
  c!"        .lookup(TUNNEL_CLIENT_ENDPOINT_TYPE)",
  c!"        .map(|v| v.encode_tagged_string())",
  c!"}",
  c!"/// Lookup all of the `tunnel_client_endpoint` tagged string value from a packet.",
  c!"pub fn lookup_all_tunnel_client_endpoint(",
  c!"    packet: &Packet,",
  c!") -> Result<Vec<(String, Option<Tag>)>, AVPError> {",
  c!"    let mut vec = Vec::new();",
  c!"    for avp in packet.lookup_all(TUNNEL_CLIENT_ENDPOINT_TYPE) {",
  c!"        vec.push(avp.encode_tagged_string()?)",
  c!"    }",
  c!"    Ok(vec)",
  c!"}",
  c!"",
  c!"pub const TUNNEL_SERVER_ENDPOINT_TYPE: AVPType = 67;",
  c!"/// Delete all of `tunnel_server_endpoint` values from a packet.",
  c!"pub fn delete_tunnel_server_endpoint(packet: &mut Packet) {",
  c!"    packet.delete(TUNNEL_SERVER_ENDPOINT_TYPE);",
  c!"}",
  c!"/// Add `tunnel_server_endpoint` tagged string value to a packet.",
  c!"pub fn add_tunnel_server_endpoint(packet: &mut Packet, tag: Option<&Tag>, value: &str) {",
  c!"    packet.add(AVP::from_tagged_string(",
  c!"        TUNNEL_SERVER_ENDPOINT_TYPE,",
  c!"        tag,",
  c!"        value,",
  c!"    ));",
  c!"}",
  c!"/// Lookup a `tunnel_server_endpoint` tagged string value from a packet.",
  c!"///",
  c!"/// It returns the first looked up value. If there is no associated value with `tunnel_server_endpoint`, it returns `None`.",
  c!"pub fn lookup_tunnel_server_endpoint("]

noncomputable def rfc2868Module_3 : List Str := [
  c!"    packet: &Packet,",
  c!") -> Option<Result<(String, Option<Tag>), AVPError>> {",
  c!"    packet",
  c!"        .lookup(TUNNEL_SERVER_ENDPOINT_TYPE)",
  c!"        .map(|v| v.encode_tagged_string())",
  c!"}",
  c!"/// Lookup all of the `tunnel_server_endpoint` tagged string value from a packet.",
  c!"pub fn lookup_all_tunnel_server_endpoint(",
  c!"    packet: &Packet,",
  c!") -> Result<Vec<(String, Option<Tag>)>, AVPError> {",
  c!"    let mut vec = Vec::new();",
  c!"    for avp in packet.lookup_all(TUNNEL_SERVER_ENDPOINT_TYPE) {",
  c!"        vec.push(avp.encode_tagged_string()?)",
  c!"    }",
  c!"    Ok(vec)",
  c!"}",
  c!"",
  c!"pub const TUNNEL_PASSWORD_TYPE: AVPType = 69;",
  c!"/// Delete all of `tunnel_password` values from a packet.",
  c!"pub fn delete_tunnel_password(packet: &mut Packet) {",
  c!"    packet.delete(TUNNEL_PASSWORD_TYPE);",
  c!"}",
  c!"/// Add `tunnel_password` tunnel-password value to a packet.",
  c!"pub fn add_tunnel_password(",
  c!"    packet: &mut Packet,",
  c!"    tag: Option<&Tag>,",
  c!"    value: &[u8],",
  c!") -> Result<(), AVPError> {",
  c!"    packet.add(AVP::from_tunnel_password(",
  c!"        TUNNEL_PASSWORD_TYPE,",
  c!"        tag,",
  c!"        value,",
  c!"        packet.get_secret(),",
  c!"        packet.get_authenticator(),",
  c!"    )?);",
  c!"    Ok(())",
  c!"}",
  c!"/// Lookup a `tunnel_password` tunnel-password value from a packet.",
  c!"///",
  c!"/// It returns the first looked up value. If there is no associated value with `tunnel_password`, it returns `None`.",
  c!"pub fn lookup_tunnel_password(packet: &Packet) -> Option<Result<(Vec<u8>, Tag), AVPError>> {",
  c!"    packet",
  c!"        .lookup(TUNNEL_PASSWORD_TYPE)",
  c!"        .map(|v| v.encode_tunnel_password(packet.get_secret(), packet.get_authenticator()))",
  c!"}",
  c!"/// Lookup all of the `tunnel_password` tunnel-password value from a packet.",
  c!"pub fn lookup_all_tunnel_password(packet: &Packet) -> Result<Vec<(Vec<u8>, Tag)>, AVPError> {",
  c!"    let mut vec = Vec::new();",
  c!"    for avp in packet.lookup_all(TUNNEL_PASSWORD_TYPE) {",
  c!"        vec.push(avp.encode_tunnel_password(packet.get_secret(), packet.get_authenticator())?)",
  c!"    }",
  c!"    Ok(vec)",
  c!"}",
  c!"",
  c!"pub const TUNNEL_PRIVATE_GROUP_ID_TYPE: AVPType = 81;",
  c!"/// Delete all of `tunnel_private_group_id` values from a packet.",
  c!"pub fn delete_tunnel_private_group_id(packet: &mut Packet) {",
  c!"    packet.delete(TUNNEL_PRIVATE_GROUP_ID_TYPE);",
  c!"}",
  c!"/// Add `tunnel_private_group_id` tagged string value to a packet."]

noncomputable def rfc2868Module_4 : List Str := [
  c!"pub fn add_tunnel_private_group_id(packet: &mut Packet, tag: Option<&Tag>, value: &str) {",
  c!"    packet.add(AVP::from_tagged_string(",
  c!"        TUNNEL_PRIVATE_GROUP_ID_TYPE,",
  c!"        tag,",
  c!"        value,",
  c!"    ));",
  c!"}",
  c!"/// Lookup a `tunnel_private_group_id` tagged string value from a packet.",
  c!"///",
  c!"/// It returns the first looked up value. If there is no associated value with `tunnel_private_group_id`, it returns `None`.",
  c!"pub fn lookup_tunnel_private_group_id(",
  c!"    packet: &Packet,",
  c!") -> Option<Result<(String, Option<Tag>), AVPError>> {",
  c!"    packet",
  c!"        .lookup(TUNNEL_PRIVATE_GROUP_ID_TYPE)",
  c!"        .map(|v| v.encode_tagged_string())",
  c!"}",
  c!"/// Lookup all of the `tunnel_private_group_id` tagged string value from a packet.",
  c!"pub fn lookup_all_tunnel_private_group_id(",
  c!"    packet: &Packet,",
  c!") -> Result<Vec<(String, Option<Tag>)>, AVPError> {",
  c!"    let mut vec = Vec::new();",
  c!"    for avp in packet.lookup_all(TUNNEL_PRIVATE_GROUP_ID_TYPE) {",
  c!"        vec.push(avp.encode_tagged_string()?)",
  c!"    }",
  c!"    Ok(vec)",
  c!"}",
  c!"",
  c!"pub const TUNNEL_ASSIGNMENT_ID_TYPE: AVPType = 82;",
  c!"/// Delete all of `tunnel_assignment_id` values from a packet.",
  c!"pub fn delete_tunnel_assignment_id(packet: &mut Packet) {",
  c!"    packet.delete(TUNNEL_ASSIGNMENT_ID_TYPE);",
  c!"}",
  c!"/// Add `tunnel_assignment_id` tagged string value to a packet.",
  c!"pub fn add_tunnel_assignment_id(packet: &mut Packet, tag: Option<&Tag>, value: &str) {",
  c!"    packet.add(AVP::from_tagged_string(",
  c!"        TUNNEL_ASSIGNMENT_ID_TYPE,",
  c!"        tag,",
  c!"        value,",
  c!"    ));",
  c!"}",
  c!"/// Lookup a `tunnel_assignment_id` tagged string value from a packet.",
  c!"///",
  c!"/// It returns the first looked up value. If there is no associated value with `tunnel_assignment_id`, it returns `None`.",
  c!"pub fn lookup_tunnel_assignment_id(",
  c!"    packet: &Packet,",
  c!") -> Option<Result<(String, Option<Tag>), AVPError>> {",
  c!"    packet",
  c!"        .lookup(TUNNEL_ASSIGNMENT_ID_TYPE)",
  c!"        .map(|v| v.encode_tagged_string())",
  c!"}",
  c!"/// Lookup all of the `tunnel_assignment_id` tagged string value from a packet.",
  c!"pub fn lookup_all_tunnel_assignment_id(",
  c!"    packet: &Packet,",
  c!") -> Result<Vec<(String, Option<Tag>)>, AVPError> {",
  c!"    let mut vec = Vec::new();",
  c!"    for avp in packet.lookup_all(TUNNEL_ASSIGNMENT_ID_TYPE) {",
  c!"        vec.push(avp.encode_tagged_string()?)",
  c!"    }",
  c!"    Ok(vec)"]

noncomputable def rfc2868Module_5 : List Str := [
  c!"}",
  c!"",
  c!"pub const TUNNEL_PREFERENCE_TYPE: AVPType = 83;",
  c!"/// Delete all of `tunnel_preference` values from a packet.",
  c!"pub fn delete_tunnel_preference(packet: &mut Packet) {",
  c!"    packet.delete(TUNNEL_PREFERENCE_TYPE);",
  c!"}",
  c!"/// Add `tunnel_preference` tagged integer value to a packet.",
  c!"pub fn add_tunnel_preference(packet: &mut Packet, tag: Option<&Tag>, value: u32) {",
  c!"    packet.add(AVP::from_tagged_u32(TUNNEL_PREFERENCE_TYPE, tag, value));",
  c!"}",
  c!"/// Lookup a `tunnel_preference` tagged integer value from a packet.",
  c!"///",
  c!"/// It returns the first looked up value. If there is no associated value with `tunnel_preference`, it returns `None`.",
  c!"pub fn lookup_tunnel_preference(packet: &Packet) -> Option<Result<(u32, Tag), AVPError>> {",
  c!"    packet",
  c!"        .lookup(TUNNEL_PREFERENCE_TYPE)",
  c!"        .map(|v| v.encode_tagged_u32())",
  c!"}",
  c!"/// Lookup all of the `tunnel_preference` tagged integer value from a packet.",
  c!"pub fn lookup_all_tunnel_preference(packet: &Packet) -> Result<Vec<(u32, Tag)>, AVPError> {",
  c!"    let mut vec = Vec::new();",
  c!"    for avp in packet.lookup_all(TUNNEL_PREFERENCE_TYPE) {",
  c!"        vec.push(avp.encode_tagged_u32()?)",
  c!"    }",
  c!"    Ok(vec)",
  c!"}",
  c!"",
  c!"pub const TUNNEL_CLIENT_AUTH_ID_TYPE: AVPType = 90;",
  c!"/// Delete all of `tunnel_client_auth_id` values from a packet.",
  c!"pub fn delete_tunnel_client_auth_id(packet: &mut Packet) {",
  c!"    packet.delete(TUNNEL_CLIENT_AUTH_ID_TYPE);",
  c!"}",
  c!"/// Add `tunnel_client_auth_id` tagged string value to a packet.",
  c!"pub fn add_tunnel_client_auth_id(packet: &mut Packet, tag: Option<&Tag>, value: &str) {",
  c!"    packet.add(AVP::from_tagged_string(",
  c!"        TUNNEL_CLIENT_AUTH_ID_TYPE,",
  c!"        tag,",
  c!"        value,",
  c!"    ));",
  c!"}",
  c!"/// Lookup a `tunnel_client_auth_id` tagged string value from a packet.",
  c!"///",
  c!"/// It returns the first looked up value. If there is no associated value with `tunnel_client_auth_id`, it returns `None`.",
  c!"pub fn lookup_tunnel_client_auth_id(",
  c!"    packet: &Packet,",
  c!") -> Option<Result<(String, Option<Tag>), AVPError>> {",
  c!"    packet",
  c!"        .lookup(TUNNEL_CLIENT_AUTH_ID_TYPE)",
  c!"        .map(|v| v.encode_tagged_string())",
  c!"}",
  c!"/// Lookup all of the `tunnel_client_auth_id` tagged string value from a packet.",
  c!"pub fn lookup_all_tunnel_client_auth_id(",
  c!"    packet: &Packet,",
  c!") -> Result<Vec<(String, Option<Tag>)>, AVPError> {",
  c!"    let mut vec = Vec::new();",
  c!"    for avp in packet.lookup_all(TUNNEL_CLIENT_AUTH_ID_TYPE) {",
  c!"        vec.push(avp.encode_tagged_string()?)",
  c!"    }",
  c!"    Ok(vec)"]

noncomputable def rfc2868Module_6 : List Str := [
  c!"}",
  c!"",
  c!"pub const TUNNEL_SERVER_AUTH_ID_TYPE: AVPType = 91;",
  c!"/// Delete all of `tunnel_server_auth_id` values from a packet.",
  c!"pub fn delete_tunnel_server_auth_id(packet: &mut Packet) {",
  c!"    packet.delete(TUNNEL_SERVER_AUTH_ID_TYPE);",
  c!"}",
  c!"/// Add `tunnel_server_auth_id` tagged string value to a packet.",
  c!"pub fn add_tunnel_server_auth_id(packet: &mut Packet, tag: Option<&Tag>, value: &str) {",
  c!"    packet.add(AVP::from_tagged_string(",
  c!"        TUNNEL_SERVER_AUTH_ID_TYPE,",
  c!"        tag,",
  c!"        value,",
  c!"    ));",
  c!"}",
  c!"/// Lookup a `tunnel_server_auth_id` tagged string value from a packet.",
  c!"///",
  c!"/// It returns the first looked up value. If there is no associated value with `tunnel_server_auth_id`, it returns `None`.",
  c!"pub fn lookup_tunnel_server_auth_id(",
  c!"    packet: &Packet,",
  c!") -> Option<Result<(String, Option<Tag>), AVPError>> {",
  c!"    packet",
  c!"        .lookup(TUNNEL_SERVER_AUTH_ID_TYPE)",
  c!"        .map(|v| v.encode_tagged_string())",
  c!"}",
  c!"/// Lookup all of the `tunnel_server_auth_id` tagged string value from a packet.",
  c!"pub fn lookup_all_tunnel_server_auth_id(",
  c!"    packet: &Packet,",
  c!") -> Result<Vec<(String, Option<Tag>)>, AVPError> {",
  c!"    let mut vec = Vec::new();",
  c!"    for avp in packet.lookup_all(TUNNEL_SERVER_AUTH_ID_TYPE) {",
  c!"        vec.push(avp.encode_tagged_string()?)",
  c!"    }",
  c!"    Ok(vec)",
  c!"}",
  c!"",
  c!"pub type TunnelMediumType = u32;",
  c!"pub const TUNNEL_MEDIUM_TYPE_IP: TunnelMediumType = 1;",
  c!"pub const TUNNEL_MEDIUM_TYPE_I_PV_4: TunnelMediumType = 1;",
  c!"pub const TUNNEL_MEDIUM_TYPE_I_PV_6: TunnelMediumType = 2;",
  c!"pub const TUNNEL_MEDIUM_TYPE_NSAP: TunnelMediumType = 3;",
  c!"pub const TUNNEL_MEDIUM_TYPE_HDLC: TunnelMediumType = 4;",
  c!"pub const TUNNEL_MEDIUM_TYPE_BBN_1822: TunnelMediumType = 5;",
  c!"pub const TUNNEL_MEDIUM_TYPE_IEEE_802: TunnelMediumType = 6;",
  c!"pub const TUNNEL_MEDIUM_TYPE_E_163: TunnelMediumType = 7;",
  c!"pub const TUNNEL_MEDIUM_TYPE_E_164: TunnelMediumType = 8;",
  c!"pub const TUNNEL_MEDIUM_TYPE_F_69: TunnelMediumType = 9;",
  c!"pub const TUNNEL_MEDIUM_TYPE_X_121: TunnelMediumType = 10;",
  c!"pub const TUNNEL_MEDIUM_TYPE_IPX: TunnelMediumType = 11;",
  c!"pub const TUNNEL_MEDIUM_TYPE_APPLETALK: TunnelMediumType = 12;",
  c!"pub const TUNNEL_MEDIUM_TYPE_DEC_NET_IV: TunnelMediumType = 13;",
  c!"pub const TUNNEL_MEDIUM_TYPE_BANYAN_VINES: TunnelMediumType = 14;",
  c!"pub const TUNNEL_MEDIUM_TYPE_E_164_NSAP: TunnelMediumType = 15;",
  c!"",
  c!"pub type TunnelType = u32;",
  c!"pub const TUNNEL_TYPE_PPTP: TunnelType = 1;",
  c!"pub const TUNNEL_TYPE_L2F: TunnelType = 2;",
  c!"pub const TUNNEL_TYPE_L2TP: TunnelType = 3;",
  c!"pub const TUNNEL_TYPE_ATMP: TunnelType = 4;",
  c!"pub const TUNNEL_TYPE_VTP: TunnelType = 5;"]

noncomputable def rfc2868Module_7 : List Str := [
  c!"pub const TUNNEL_TYPE_AH: TunnelType = 6;",
  c!"pub const TUNNEL_TYPE_IP: TunnelType = 7;",
  c!"pub const TUNNEL_TYPE_MIN_IP: TunnelType = 8;",
  c!"pub const TUNNEL_TYPE_ESP: TunnelType = 9;",
  c!"pub const TUNNEL_TYPE_GRE: TunnelType = 10;",
  c!"pub const TUNNEL_TYPE_DVS: TunnelType = 11;",
  c!"pub const TUNNEL_TYPE_IP_IN_IP: TunnelType = 12;"]

/-- The lines of radius/src/core/rfc2868.rs (1-427). -/
noncomputable def rfc2868Module : List Str :=
  rfc2868Module_0 ++ rfc2868Module_1 ++ rfc2868Module_2 ++ rfc2868Module_3 ++ rfc2868Module_4 ++ rfc2868Module_5 ++ rfc2868Module_6 ++ rfc2868Module_7

noncomputable def rfc2869Module_0 : List Str := [
  c!"// Code generated by machine generator; DO NOT EDIT.",
  c!"",
  c!"//! Utility for rfc2869 packet.",
  c!"//!",
  c!"//! This module handles the packet according to the following definition:",
  c!"//! ```text",
  c!"//! //! # -*- text -*-",
  c!"//! # Copyright (C) 2020 The FreeRADIUS Server project and contributors",
  c!"//! # This work is licensed under CC-BY version 4.0 https://creativecommons.org/licenses/by/4.0",
  c!"//! # Version $Id$",
  c!"//! #",
  c!"//! #    Attributes and values defined in RFC 2869.",
  c!"//! #    http://www.ietf.org/rfc/rfc2869.txt",
  c!"//! #",
  c!"//! #    $Id$",
  c!"//! #",
  c!"//! ATTRIBUTE    Acct-Input-Gigawords            52    integer",
  c!"//! ATTRIBUTE    Acct-Output-Gigawords            53    integer",
  c!"//!",
  c!"//! ATTRIBUTE    Event-Timestamp                55    date",
  c!"//!",
  c!"//! ATTRIBUTE    ARAP-Password                70    octets[16]",
  c!"//! ATTRIBUTE    ARAP-Features                71    octets[14]",
  c!"//! ATTRIBUTE    ARAP-Zone-Access            72    integer",
  c!"//! ATTRIBUTE    ARAP-Security                73    integer",
  c!"//! ATTRIBUTE    ARAP-Security-Data            74    string",
  c!"//! ATTRIBUTE    Password-Retry                75    integer",
  c!"//! ATTRIBUTE    Prompt                    76    integer",
  c!"//! ATTRIBUTE    Connect-Info                77    string",
  c!"//! ATTRIBUTE    Configuration-Token            78    string",
  c!"//! ATTRIBUTE    EAP-Message                79    octets    concat",
  c!"//! ATTRIBUTE    Message-Authenticator            80    octets",
  c!"//!",
  c!"//! ATTRIBUTE    ARAP-Challenge-Response            84    octets[8]",
  c!"//! ATTRIBUTE    Acct-Interim-Interval            85    integer",
  c!"//! # 86: RFC 2867",
  c!"//! ATTRIBUTE    NAS-Port-Id                87    string",
  c!"//! ATTRIBUTE    Framed-Pool                88    string",
  c!"//!",
  c!"//! #    ARAP Zone Access",
  c!"//!",
  c!"//! VALUE    ARAP-Zone-Access        Default-Zone        1",
  c!"//! VALUE    ARAP-Zone-Access        Zone-Filter-Inclusive    2",
  c!"//! VALUE    ARAP-Zone-Access        Zone-Filter-Exclusive    4",
  c!"//!",
  c!"//! #    Prompt",
  c!"//! VALUE    Prompt                No-Echo            0",
  c!"//! VALUE    Prompt                Echo            1",
  c!"//! ```",
  c!"",
  c!"use chrono::{DateTime, Utc};",
  c!"",
  c!"use crate::core::avp::{AVPError, AVPType, AVP};",
  c!"use crate::core::packet::Packet;",
  c!"",
  c!"pub const ACCT_INPUT_GIGAWORDS_TYPE: AVPType = 52;",
  c!"/// Delete all of `acct_input_gigawords` values from a packet.",
  c!"pub fn delete_acct_input_gigawords(packet: &mut Packet) {",
  c!"    packet.delete(ACCT_INPUT_GIGAWORDS_TYPE);",
  c!"}"]

noncomputable def rfc2869Module_1 : List Str := [
  c!"/// Add `acct_input_gigawords` integer value to a packet.",
  c!"pub fn add_acct_input_gigawords(packet: &mut Packet, value: u32) {",
  c!"    packet.add(AVP::from_u32(ACCT_INPUT_GIGAWORDS_TYPE, value));",
  c!"}",
  c!"/// Lookup a `acct_input_gigawords` integer value from a packet.",
  c!"///",
  c!"/// It returns the first looked up value. If there is no associated value with `acct_input_gigawords`, it returns `None`.",
  c!"pub fn lookup_acct_input_gigawords(packet: &Packet) -> Option<Result<u32, AVPError>> {",
  c!"    packet",
  c!"        .lookup(ACCT_INPUT_GIGAWORDS_TYPE)",
  c!"        .map(|v| v.encode_u32())",
  c!"}",
  c!"/// Lookup all of the `acct_input_gigawords` integer value from a packet.",
  c!"pub fn lookup_all_acct_input_gigawords(packet: &Packet) -> Result<Vec<u32>, AVPError> {",
  c!"    let mut vec = Vec::new();",
  c!"    for avp in packet.lookup_all(ACCT_INPUT_GIGAWORDS_TYPE) {",
  c!"        vec.push(avp.encode_u32()?)",
  c!"    }",
  c!"    Ok(vec)",
  c!"}",
  c!"",
  c!"pub const ACCT_OUTPUT_GIGAWORDS_TYPE: AVPType = 53;",
  c!"/// Delete all of `acct_output_gigawords` values from a packet.",
  c!"pub fn delete_acct_output_gigawords(packet: &mut Packet) {",
  c!"    packet.delete(ACCT_OUTPUT_GIGAWORDS_TYPE);",
  c!"}",
  c!"/// Add `acct_output_gigawords` integer value to a packet.",
  c!"pub fn add_acct_output_gigawords(packet: &mut Packet, value: u32) {",
  c!"    packet.add(AVP::from_u32(ACCT_OUTPUT_GIGAWORDS_TYPE, value));",
  c!"}",
  c!"/// Lookup a `acct_output_gigawords` integer value from a packet.",
  c!"///",
  c!"/// It returns the first looked up value. If there is no associated value with `acct_output_gigawords`, it returns `None`.",
  c!"pub fn lookup_acct_output_gigawords(packet: &Packet) -> Option<Result<u32, AVPError>> {",
  c!"    packet",
  c!"        .lookup(ACCT_OUTPUT_GIGAWORDS_TYPE)",
  c!"        .map(|v| v.encode_u32())",
  c!"}",
  c!"/// Lookup all of the `acct_output_gigawords` integer value from a packet.",
  c!"pub fn lookup_all_acct_output_gigawords(packet: &Packet) -> Result<Vec<u32>, AVPError> {",
  c!"    let mut vec = Vec::new();",
  c!"    for avp in packet.lookup_all(ACCT_OUTPUT_GIGAWORDS_TYPE) {",
  c!"        vec.push(avp.encode_u32()?)",
  c!"    }",
  c!"    Ok(vec)",
  c!"}",
  c!"",
  c!"pub const EVENT_TIMESTAMP_TYPE: AVPType = 55;",
  c!"/// Delete all of `event_timestamp` values from a packet.",
  c!"pub fn delete_event_timestamp(packet: &mut Packet) {",
  c!"    packet.delete(EVENT_TIMESTAMP_TYPE);",
  c!"}",
  c!"/// Add `event_timestamp` date value to a packet.",
  c!"pub fn add_event_timestamp(packet: &mut Packet, value: &DateTime<Utc>) {",
  c!"    packet.add(AVP::from_date(EVENT_TIMESTAMP_TYPE, value));",
  c!"}",
  c!"/// Lookup a `event_timestamp` date value from a packet.",
  c!"///",
  c!"/// It returns the first looked up value. If there is no associated value with `event_timestamp`, it returns `None`.",
  c!"pub fn lookup_event_timestamp(packet: &Packet) -> Option<Result<DateTime<Utc>, AVPError>> {"]

noncomputable def rfc2869Module_2 : List Str := [
  c!"    packet.lookup(EVENT_TIMESTAMP_TYPE).map(|v| v.encode_date())",
  c!"}",
  c!"/// Lookup all of the `event_timestamp` date value from a packet.",
  c!"pub fn lookup_all_event_timestamp(packet: &Packet) -> Result<Vec<DateTime<Utc>>, AVPError> {",
  c!"    let mut vec = Vec::new();",
  c!"    for avp in packet.lookup_all(EVENT_TIMESTAMP_TYPE) {",
  c!"        vec.push(avp.encode_date()?)",
  c!"    }",
  c!"    Ok(vec)",
  c!"}",
  c!"",
  c!"pub const ARAP_PASSWORD_TYPE: AVPType = 70;",
  c!"/// Delete all of `arap_password` values from a packet.",
  c!"pub fn delete_arap_password(packet: &mut Packet) {",
  c!"    packet.delete(ARAP_PASSWORD_TYPE);",
  c!"}",
  c!"/// Add `arap_password` fixed-length octets value to a packet.",
  c!"pub fn add_arap_password(packet: &mut Packet, value: &[u8]) -> Result<(), AVPError> {",
  c!"    if value.len() != 16 {",
  c!"        return Err(AVPError::InvalidAttributeLengthError(",
  c! r#"            "16 bytes".to_owned(),"#,
  c!"            value.len(),",
  c!"        ));",
  c!"    }",
  c!"    packet.add(AVP::from_bytes(ARAP_PASSWORD_TYPE, value));",
  c!"    Ok(())",
  c!"}",
  c!"/// Lookup a `arap_password` fixed-length octets value from a packet.",
  c!"///",
  c!"/// It returns the first looked up value. If there is no associated value with `arap_password`, it returns `None`.",
  c!"pub fn lookup_arap_password(packet: &Packet) -> Option<Vec<u8>> {",
  c!"    packet.lookup(ARAP_PASSWORD_TYPE).map(|v| v.encode_bytes())",
  c!"}",
  c!"/// Lookup all of the `arap_password` fixed-length octets value from a packet.",
  c!"pub fn lookup_all_arap_password(packet: &Packet) -> Vec<Vec<u8>> {",
  c!"    let mut vec = Vec::new();",
  c!"    for avp in packet.lookup_all(ARAP_PASSWORD_TYPE) {",
  c!"        vec.push(avp.encode_bytes())",
  c!"    }",
  c!"    vec",
  c!"}",
  c!"",
  c!"pub const ARAP_FEATURES_TYPE: AVPType = 71;",
  c!"/// Delete all of `arap_features` values from a packet.",
  c!"pub fn delete_arap_features(packet: &mut Packet) {",
  c!"    packet.delete(ARAP_FEATURES_TYPE);",
  c!"}",
  c!"/// Add `arap_features` fixed-length octets value to a packet.",
  c!"pub fn add_arap_features(packet: &mut Packet, value: &[u8]) -> Result<(), AVPError> {",
  c!"    if value.len() != 14 {",
  c!"        return Err(AVPError::InvalidAttributeLengthError(",
  c! r#"            "14 bytes".to_owned(),"#,
  c!"            value.len(),",
  c!"        ));",
  c!"    }",
  c!"    packet.add(AVP::from_bytes(ARAP_FEATURES_TYPE, value));",
  c!"    Ok(())",
  c!"}",
  c!"/// Lookup a `arap_features` fixed-length octets value from a packet.",
  c!"///"]

noncomputable def rfc2869Module_3 : List Str := [
  c!"/// It returns the first looked up value. If there is no associated value with `arap_features`, it returns `None`.",
  c!"pub fn lookup_arap_features(packet: &Packet) -> Option<Vec<u8>> {",
  c!"    packet.lookup(ARAP_FEATURES_TYPE).map(|v| v.encode_bytes())",
  c!"}",
  c!"/// Lookup all of the `arap_features` fixed-length octets value from a packet.",
  c!"pub fn lookup_all_arap_features(packet: &Packet) -> Vec<Vec<u8>> {",
  c!"    let mut vec = Vec::new();",
  c!"    for avp in packet.lookup_all(ARAP_FEATURES_TYPE) {",
  c!"        vec.push(avp.encode_bytes())",
  c!"    }",
  c!"    vec",
  c!"}",
  c!"",
  c!"pub const ARAP_ZONE_ACCESS_TYPE: AVPType = 72;",
  c!"/// Delete all of `arap_zone_access` values from a packet.",
  c!"pub fn delete_arap_zone_access(packet: &mut Packet) {",
  c!"    packet.delete(ARAP_ZONE_ACCESS_TYPE);",
  c!"}",
  c!"/// Add `arap_zone_access` value-defined integer value to a packet.",
  c!"pub fn add_arap_zone_access(packet: &mut Packet, value: ArapZoneAccess) {",
  c!"    packet.add(AVP::from_u32(ARAP_ZONE_ACCESS_TYPE, value));",
  c!"}",
  c!"/// Lookup a `arap_zone_access` value-defined integer value from a packet.",
  c!"///",
  c!"/// It returns the first looked up value. If there is no associated value with `arap_zone_access`, it returns `None`.",
  c!"pub fn lookup_arap_zone_access(packet: &Packet) -> Option<Result<ArapZoneAccess, AVPError>> {",
  c!"    packet",
  c!"        .lookup(ARAP_ZONE_ACCESS_TYPE)",
  c!"        .map(|v| Ok(v.encode_u32()? as ArapZoneAccess))",
  c!"}",
  c!"/// Lookup all of the `arap_zone_access` value-defined integer value from a packet.",
  c!"pub fn lookup_all_arap_zone_access(packet: &Packet) -> Result<Vec<ArapZoneAccess>, AVPError> {",
  c!"    let mut vec = Vec::new();",
  c!"    for avp in packet.lookup_all(ARAP_ZONE_ACCESS_TYPE) {",
  c!"        vec.push(avp.encode_u32()? as ArapZoneAccess)",
  c!"    }",
  c!"    Ok(vec)",
  c!"}",
  c!"",
  c!"pub const ARAP_SECURITY_TYPE: AVPType = 73;",
  c!"/// Delete all of `arap_security` values from a packet.",
  c!"pub fn delete_arap_security(packet: &mut Packet) {",
  c!"    packet.delete(ARAP_SECURITY_TYPE);",
  c!"}",
  c!"/// Add `arap_security` integer value to a packet.",
  c!"pub fn add_arap_security(packet: &mut Packet, value: u32) {",
  c!"    packet.add(AVP::from_u32(ARAP_SECURITY_TYPE, value));",
  c!"}",
  c!"/// Lookup a `arap_security` integer value from a packet.",
  c!"///",
  c!"/// It returns the first looked up value. If there is no associated value with `arap_security`, it returns `None`.",
  c!"pub fn lookup_arap_security(packet: &Packet) -> Option<Result<u32, AVPError>> {",
  c!"    packet.lookup(ARAP_SECURITY_TYPE).map(|v| v.encode_u32())",
  c!"}",
  c!"/// Lookup all of the `arap_security` integer value from a packet.",
  c!"pub fn lookup_all_arap_security(packet: &Packet) -> Result<Vec<u32>, AVPError> {",
  c!"    let mut vec = Vec::new();",
  c!"    for avp in packet.lookup_all(ARAP_SECURITY_TYPE) {",
  c!"        vec.push(avp.encode_u32()?)",
  c!"    }"]

noncomputable def rfc2869Module_4 : List Str := [
  c!"    Ok(vec)",
  c!"}",
  c!"",
  c!"pub const ARAP_SECURITY_DATA_TYPE: AVPType = 74;",
  c!"/// Delete all of `arap_security_data` values from a packet.",
  c!"pub fn delete_arap_security_data(packet: &mut Packet) {",
  c!"    packet.delete(ARAP_SECURITY_DATA_TYPE);",
  c!"}",
  c!"/// Add `arap_security_data` string value to a packet.",
  c!"pub fn add_arap_security_data(packet: &mut Packet, value: &str) {",
  c!"    packet.add(AVP::from_string(ARAP_SECURITY_DATA_TYPE, value));",
  c!"}",
  c!"/// Lookup a `arap_security_data` string value from a packet.",
  c!"///",
  c!"/// It returns the first looked up value. If there is no associated value with `arap_security_data`, it returns `None`.",
  c!"pub fn lookup_arap_security_data(packet: &Packet) -> Option<Result<String, AVPError>> {",
  c!"    packet",
  c!"        .lookup(ARAP_SECURITY_DATA_TYPE)",
  c!"        .map(|v| v.encode_string())",
  c!"}",
  c!"/// Lookup all of the `arap_security_data` string value from a packet.",
  c!"pub fn lookup_all_arap_security_data(packet: &Packet) -> Result<Vec<String>, AVPError> {",
  c!"    let mut vec = Vec::new();",
  c!"    for avp in packet.lookup_all(ARAP_SECURITY_DATA_TYPE) {",
  c!"        vec.push(avp.encode_string()?)",
  c!"    }",
  c!"    Ok(vec)",
  c!"}",
  c!"",
  c!"pub const PASSWORD_RETRY_TYPE: AVPType = 75;",
  c!"/// Delete all of `password_retry` values from a packet.",
  c!"pub fn delete_password_retry(packet: &mut Packet) {",
  c!"    packet.delete(PASSWORD_RETRY_TYPE);",
  c!"}",
  c!"/// Add `password_retry` integer value to a packet.",
  c!"pub fn add_password_retry(packet: &mut Packet, value: u32) {",
  c!"    packet.add(AVP::from_u32(PASSWORD_RETRY_TYPE, value));",
  c!"}",
  c!"/// Lookup a `password_retry` integer value from a packet.",
  c!"///",
  c!"/// It returns the first looked up value. If there is no associated value with `password_retry`, it returns `None`.",
  c!"pub fn lookup_password_retry(packet: &Packet) -> Option<Result<u32, AVPError>> {",
  c!"    packet.lookup(PASSWORD_RETRY_TYPE).map(|v| v.encode_u32())",
  c!"}",
  c!"/// Lookup all of the `password_retry` integer value from a packet.",
  c!"pub fn lookup_all_password_retry(packet: &Packet) -> Result<Vec<u32>, AVPError> {",
  c!"    let mut vec = Vec::new();",
  c!"    for avp in packet.lookup_all(PASSWORD_RETRY_TYPE) {",
  c!"        vec.push(avp.encode_u32()?)",
  c!"    }",
  c!"    Ok(vec)",
  c!"}",
  c!"",
  c!"pub const PROMPT_TYPE: AVPType = 76;",
  c!"/// Delete all of `prompt` values from a packet.",
  c!"pub fn delete_prompt(packet: &mut Packet) {",
  c!"    packet.delete(PROMPT_TYPE);",
  c!"}",
  c!"/// Add `prompt` value-defined integer value to a packet.",
  c!"pub fn add_prompt(packet: &mut Packet, value: Prompt) {"]

noncomputable def rfc2869Module_5 : List Str := [
  c!"    packet.add(AVP::from_u32(PROMPT_TYPE, value));",
  c!"}",
  c!"/// Lookup a `prompt` value-defined integer value from a packet.",
  c!"///",
  c!"/// It returns the first looked up value. If there is no associated value with `prompt`, it returns `None`.",
  c!"pub fn lookup_prompt(packet: &Packet) -> Option<Result<Prompt, AVPError>> {",
  c!"    packet",
  c!"        .lookup(PROMPT_TYPE)",
  c!"        .map(|v| Ok(v.encode_u32()? as Prompt))",
  c!"}",
  c!"/// Lookup all of the `prompt` value-defined integer value from a packet.",
  c!"pub fn lookup_all_prompt(packet: &Packet) -> Result<Vec<Prompt>, AVPError> {",
  c!"    let mut vec = Vec::new();",
  c!"    for avp in packet.lookup_all(PROMPT_TYPE) {",
  c!"        vec.push(avp.encode_u32()? as Prompt)",
  c!"    }",
  c!"    Ok(vec)",
  c!"}",
  c!"",
  c!"pub const CONNECT_INFO_TYPE: AVPType = 77;",
  c!"/// Delete all of `connect_info` values from a packet.",
  c!"pub fn delete_connect_info(packet: &mut Packet) {",
  c!"    packet.delete(CONNECT_INFO_TYPE);",
  c!"}",
  c!"/// Add `connect_info` string value to a packet.",
  c!"pub fn add_connect_info(packet: &mut Packet, value: &str) {",
  c!"    packet.add(AVP::from_string(CONNECT_INFO_TYPE, value));",
  c!"}",
  c!"/// Lookup a `connect_info` string value from a packet.",
  c!"///",
  c!"/// It returns the first looked up value. If there is no associated value with `connect_info`, it returns `None`.",
  c!"pub fn lookup_connect_info(packet: &Packet) -> Option<Result<String, AVPError>> {",
  c!"    packet.lookup(CONNECT_INFO_TYPE).map(|v| v.encode_string())",
  c!"}",
  c!"/// Lookup all of the `connect_info` string value from a packet.",
  c!"pub fn lookup_all_connect_info(packet: &Packet) -> Result<Vec<String>, AVPError> {",
  c!"    let mut vec = Vec::new();",
  c!"    for avp in packet.lookup_all(CONNECT_INFO_TYPE) {",
  c!"        vec.push(avp.encode_string()?)",
  c!"    }",
  c!"    Ok(vec)",
  c!"}",
  c!"",
  c!"pub const CONFIGURATION_TOKEN_TYPE: AVPType = 78;",
  c!"/// Delete all of `configuration_token` values from a packet.",
  c!"pub fn delete_configuration_token(packet: &mut Packet) {",
  c!"    packet.delete(CONFIGURATION_TOKEN_TYPE);",
  c!"}",
  c!"/// Add `configuration_token` string value to a packet.",
  c!"pub fn add_configuration_token(packet: &mut Packet, value: &str) {",
  c!"    packet.add(AVP::from_string(CONFIGURATION_TOKEN_TYPE, value));",
  c!"}",
  c!"/// Lookup a `configuration_token` string value from a packet.",
  c!"///",
  c!"/// It returns the first looked up value. If there is no associated value with `configuration_token`, it returns `None`.",
  c!"pub fn lookup_configuration_token(packet: &Packet) -> Option<Result<String, AVPError>> {",
  c!"    packet",
  c!"        .lookup(CONFIGURATION_TOKEN_TYPE)",
  c!"        .map(|v| v.encode_string())",
  c!"}"]

noncomputable def rfc2869Module_6 : List Str := [
  c!"/// Lookup all of the `configuration_token` string value from a packet.",
  c!"pub fn lookup_all_configuration_token(packet: &Packet) -> Result<Vec<String>, AVPError> {",
  c!"    let mut vec = Vec::new();",
  c!"    for avp in packet.lookup_all(CONFIGURATION_TOKEN_TYPE) {",
  c!"        vec.push(avp.encode_string()?)",
  c!"    }",
  c!"    Ok(vec)",
  c!"}",
  c!"",
  c!"pub const EAP_MESSAGE_TYPE: AVPType = 79;",
  c!"/// Delete all of `eap_message` values from a packet.",
  c!"pub fn delete_eap_message(packet: &mut Packet) {",
  c!"    packet.delete(EAP_MESSAGE_TYPE);",
  c!"}",
  c!"pub fn add_eap_message(packet: &mut Packet, value: &[u8]) {",
  c!"    packet.extend(",
  c!"        value",
  c!"            .chunks(253)",
  c!"            .map(|chunk| AVP::from_bytes(EAP_MESSAGE_TYPE, chunk))",
  c!"            .collect(),",
  c!"    );",
  c!"}",
  c!"pub fn lookup_eap_message(packet: &Packet) -> Option<Vec<u8>> {",
  c!"    let avps = packet.lookup_all(EAP_MESSAGE_TYPE);",
  c!"    match avps.is_empty() {",
  c!"        true => None,",
  c!"        false => Some(avps.into_iter().fold(Vec::new(), |mut acc, v| {",
  c!"            acc.extend(v.encode_bytes());",
  c!"            acc",
  c!"        })),",
  c!"    }",
  c!"}",
  c!"",
  c!"pub const MESSAGE_AUTHENTICATOR_TYPE: AVPType = 80;",
  c!"/// Delete all of `message_authenticator` values from a packet.",
  c!"pub fn delete_message_authenticator(packet: &mut Packet) {",
  c!"    packet.delete(MESSAGE_AUTHENTICATOR_TYPE);",
  c!"}",
  c!"/// Add `message_authenticator` octets value to a packet.",
  c!"pub fn add_message_authenticator(packet: &mut Packet, value: &[u8]) {",
  c!"    packet.add(AVP::from_bytes(MESSAGE_AUTHENTICATOR_TYPE, value));",
  c!"}",
  c!"/// Lookup a `message_authenticator` octets value from a packet.",
  c!"///",
  c!"/// It returns the first looked up value. If there is no associated value with `message_authenticator`, it returns `None`.",
  c!"pub fn lookup_message_authenticator(packet: &Packet) -> Option<Vec<u8>> {",
  c!"    packet",
  c!"        .lookup(MESSAGE_AUTHENTICATOR_TYPE)",
  c!"        .map(|v| v.encode_bytes())",
  c!"}",
  c!"/// Lookup all of the `message_authenticator` octets value from a packet.",
  c!"pub fn lookup_all_message_authenticator(packet: &Packet) -> Vec<Vec<u8>> {",
  c!"    let mut vec = Vec::new();",
  c!"    for avp in packet.lookup_all(MESSAGE_AUTHENTICATOR_TYPE) {",
  c!"        vec.push(avp.encode_bytes())",
  c!"    }",
  c!"    vec",
  c!"}",
  c!"",
  c!"pub const ARAP_CHALLENGE_RESPONSE_TYPE: AVPType = 84;"]

noncomputable def rfc2869Module_7 : List Str := [
  c!"/// Delete all of `arap_challenge_response` values from a packet.",
  c!"pub fn delete_arap_challenge_response(packet: &mut Packet) {",
  c!"    packet.delete(ARAP_CHALLENGE_RESPONSE_TYPE);",
  c!"}",
  c!"/// Add `arap_challenge_response` fixed-length octets value to a packet.",
  c!"pub fn add_arap_challenge_response(packet: &mut Packet, value: &[u8]) -> Result<(), AVPError> {",
  c!"    if value.len() != 8 {",
  c!"        return Err(AVPError::InvalidAttributeLengthError(",
  c! r#"            "8 bytes".to_owned(),"#,
  c!"            value.len(),",
  c!"        ));",
  c!"    }",
  c!"    packet.add(AVP::from_bytes(ARAP_CHALLENGE_RESPONSE_TYPE, value));",
  c!"    Ok(())",
  c!"}",
  c!"/// Lookup a `arap_challenge_response` fixed-length octets value from a packet.",
  c!"///",
  c!"/// It returns the first looked up value. If there is no associated value with `arap_challenge_response`, it returns `None`.",
  c!"pub fn lookup_arap_challenge_response(packet: &Packet) -> Option<Vec<u8>> {",
  c!"    packet",
  c!"        .lookup(ARAP_CHALLENGE_RESPONSE_TYPE)",
  c!"        .map(|v| v.encode_bytes())",
  c!"}",
  c!"/// Lookup all of the `arap_challenge_response` fixed-length octets value from a packet.",
  c!"pub fn lookup_all_arap_challenge_response(packet: &Packet) -> Vec<Vec<u8>> {",
  c!"    let mut vec = Vec::new();",
  c!"    for avp in packet.lookup_all(ARAP_CHALLENGE_RESPONSE_TYPE) {",
  c!"        vec.push(avp.encode_bytes())",
  c!"    }",
  c!"    vec",
  c!"}",
  c!"",
  c!"pub const ACCT_INTERIM_INTERVAL_TYPE: AVPType = 85;",
  c!"/// Delete all of `acct_interim_interval` values from a packet.",
  c!"pub fn delete_acct_interim_interval(packet: &mut Packet) {",
  c!"    packet.delete(ACCT_INTERIM_INTERVAL_TYPE);",
  c!"}",
  c!"/// Add `acct_interim_interval` integer value to a packet.",
  c!"pub fn add_acct_interim_interval(packet: &mut Packet, value: u32) {",
  c!"    packet.add(AVP::from_u32(ACCT_INTERIM_INTERVAL_TYPE, value));",
  c!"}",
  c!"/// Lookup a `acct_interim_interval` integer value from a packet.",
  c!"///",
  c!"/// It returns the first looked up value. If there is no associated value with `acct_interim_interval`, it returns `None`.",
  c!"pub fn lookup_acct_interim_interval(packet: &Packet) -> Option<Result<u32, AVPError>> {",
  c!"    packet",
  c!"        .lookup(ACCT_INTERIM_INTERVAL_TYPE)",
  c!"        .map(|v| v.encode_u32())",
  c!"}",
  c!"/// Lookup all of the `acct_interim_interval` integer value from a packet.",
  c!"pub fn lookup_all_acct_interim_interval(packet: &Packet) -> Result<Vec<u32>, AVPError> {",
  c!"    let mut vec = Vec::new();",
  c!"    for avp in packet.lookup_all(ACCT_INTERIM_INTERVAL_TYPE) {",
  c!"        vec.push(avp.encode_u32()?)",
  c!"    }",
  c!"    Ok(vec)",
  c!"}",
  c!"",
  c!"pub const NAS_PORT_ID_TYPE: AVPType = 87;",
  c!"/// Delete all of `nas_port_id` values from a packet."]

noncomputable def rfc2869Module_8 : List Str := [
  c!"pub fn delete_nas_port_id(packet: &mut Packet) {",
  c!"    packet.delete(NAS_PORT_ID_TYPE);",
  c!"}",
  c!"/// Add `nas_port_id` string value to a packet.",
  c!"pub fn add_nas_port_id(packet: &mut Packet, value: &str) {",
  c!"    packet.add(AVP::from_string(NAS_PORT_ID_TYPE, value));",
  c!"}",
  c!"/// Lookup a `nas_port_id` string value from a packet.",
  c!"///",
  c!"/// It returns the first looked up value. If there is no associated value with `nas_port_id`, it returns `None`.",
  c!"pub fn lookup_nas_port_id(packet: &Packet) -> Option<Result<String, AVPError>> {",
  c!"    packet.lookup(NAS_PORT_ID_TYPE).map(|v| v.encode_string())",
  c!"}",
  c!"/// Lookup all of the `nas_port_id` string value from a packet.",
  c!"pub fn lookup_all_nas_port_id(packet: &Packet) -> Result<Vec<String>, AVPError> {",
  c!"    let mut vec = Vec::new();",
  c!"    for avp in packet.lookup_all(NAS_PORT_ID_TYPE) {",
  c!"        vec.push(avp.encode_string()?)",
  c!"    }",
  c!"    Ok(vec)",
  c!"}",
  c!"",
  c!"pub const FRAMED_POOL_TYPE: AVPType = 88;",
  c!"/// Delete all of `framed_pool` values from a packet.",
  c!"pub fn delete_framed_pool(packet: &mut Packet) {",
  c!"    packet.delete(FRAMED_POOL_TYPE);",
  c!"}",
  c!"/// Add `framed_pool` string value to a packet.",
  c!"pub fn add_framed_pool(packet: &mut Packet, value: &str) {",
  c!"    packet.add(AVP::from_string(FRAMED_POOL_TYPE, value));",
  c!"}",
  c!"/// Lookup a `framed_pool` string value from a packet.",
  c!"///",
  c!"/// It returns the first looked up value. If there is no associated value with `framed_pool`, it returns `None`.",
  c!"pub fn lookup_framed_pool(packet: &Packet) -> Option<Result<String, AVPError>> {",
  c!"    packet.lookup(FRAMED_POOL_TYPE).map(|v| v.encode_string())",
  c!"}",
  c!"/// Lookup all of the `framed_pool` string value from a packet.",
  c!"pub fn lookup_all_framed_pool(packet: &Packet) -> Result<Vec<String>, AVPError> {",
  c!"    let mut vec = Vec::new();",
  c!"    for avp in packet.lookup_all(FRAMED_POOL_TYPE) {",
  c!"        vec.push(avp.encode_string()?)",
  c!"    }",
  c!"    Ok(vec)",
  c!"}",
  c!"",
  c!"pub type ArapZoneAccess = u32;",
  c!"pub const ARAP_ZONE_ACCESS_DEFAULT_ZONE: ArapZoneAccess = 1;",
  c!"pub const ARAP_ZONE_ACCESS_ZONE_FILTER_INCLUSIVE: ArapZoneAccess = 2;",
  c!"pub const ARAP_ZONE_ACCESS_ZONE_FILTER_EXCLUSIVE: ArapZoneAccess = 4;",
  c!"",
  c!"pub type Prompt = u32;",
  c!"pub const PROMPT_NO_ECHO: Prompt = 0;",
  c!"pub const PROMPT_ECHO: Prompt = 1;"]

/-- The lines of radius/src/core/rfc2869.rs (1-534). -/
noncomputable def rfc2869Module : List Str :=
  rfc2869Module_0 ++ rfc2869Module_1 ++ rfc2869Module_2 ++ rfc2869Module_3 ++ rfc2869Module_4 ++ rfc2869Module_5 ++ rfc2869Module_6 ++ rfc2869Module_7 ++ rfc2869Module_8

noncomputable def rfc3162Module_0 : List Str := [
  c!"// Code generated by machine generator; DO NOT EDIT.",
  c!"",
  c!"//! Utility for rfc3162 packet.",
  c!"//!",
  c!"//! This module handles the packet according to the following definition:",
  c!"//! ```text",
  c!"//! //! # -*- text -*-",
  c!"//! # Copyright (C) 2020 The FreeRADIUS Server project and contributors",
  c!"//! # This work is licensed under CC-BY version 4.0 https://creativecommons.org/licenses/by/4.0",
  c!"//! # Version $Id$",
  c!"//! #",
  c!"//! #    Attributes and values defined in RFC 3162.",
  c!"//! #    http://www.ietf.org/rfc/rfc3162.txt",
  c!"//! #",
  c!"//! #    $Id$",
  c!"//! #",
  c!"//! ATTRIBUTE    NAS-IPV6-Address            95    ipv6addr",
  c!"//! ATTRIBUTE    Framed-Interface-Id            96    ifid",
  c!"//! ATTRIBUTE    Framed-IPV6-Prefix            97    ipv6prefix",
  c!"//! ATTRIBUTE    Login-IPV6-Host                98    ipv6addr",
  c!"//! ATTRIBUTE    Framed-IPV6-Route            99    string",
  c!"//! ATTRIBUTE    Framed-IPV6-Pool            100    string",
  c!"//! ```",
  c!"",
  c!"use std::net::Ipv6Addr;",
  c!"",
  c!"use crate::core::avp::{AVPError, AVPType, AVP};",
  c!"use crate::core::packet::Packet;",
  c!"",
  c!"pub const NAS_IPV6_ADDRESS_TYPE: AVPType = 95;",
  c!"/// Delete all of `nas_ipv6_address` values from a packet.",
  c!"pub fn delete_nas_ipv6_address(packet: &mut Packet) {",
  c!"    packet.delete(NAS_IPV6_ADDRESS_TYPE);",
  c!"}",
  c!"/// Add `nas_ipv6_address` ipv6addr value to a packet.",
  c!"pub fn add_nas_ipv6_address(packet: &mut Packet, value: &Ipv6Addr) {",
  c!"    packet.add(AVP::from_ipv6(NAS_IPV6_ADDRESS_TYPE, value));",
  c!"}",
  c!"/// Lookup a `nas_ipv6_address` ipv6addr value from a packet.",
  c!"///",
  c!"/// It returns the first looked up value. If there is no associated value with `nas_ipv6_address`, it returns `None`.",
  c!"pub fn lookup_nas_ipv6_address(packet: &Packet) -> Option<Result<Ipv6Addr, AVPError>> {",
  c!"    packet",
  c!"        .lookup(NAS_IPV6_ADDRESS_TYPE)",
  c!"        .map(|v| v.encode_ipv6())",
  c!"}",
  c!"/// Lookup all of the `nas_ipv6_address` ipv6addr value from a packet.",
  c!"pub fn lookup_all_nas_ipv6_address(packet: &Packet) -> Result<Vec<Ipv6Addr>, AVPError> {",
  c!"    let mut vec = Vec::new();",
  c!"    for avp in packet.lookup_all(NAS_IPV6_ADDRESS_TYPE) {",
  c!"        vec.push(avp.encode_ipv6()?)",
  c!"    }",
  c!"    Ok(vec)",
  c!"}",
  c!"",
  c!"pub const FRAMED_INTERFACE_ID_TYPE: AVPType = 96;",
  c!"/// Delete all of `framed_interface_id` values from a packet.",
  c!"pub fn delete_framed_interface_id(packet: &mut Packet) {",
  c!"    packet.delete(FRAMED_INTERFACE_ID_TYPE);",
  c!"}"]

noncomputable def rfc3162Module_1 : List Str := [
  c!"/// Add `framed_interface_id` fixed-length octets value to a packet.",
  c!"pub fn add_framed_interface_id(packet: &mut Packet, value: &[u8]) -> Result<(), AVPError> {",
  c!"    if value.len() != 8 {",
  c!"        return Err(AVPError::InvalidAttributeLengthError(",
  c! r#"            "8 bytes".to_owned(),"#,
  c!"            value.len(),",
  c!"        ));",
  c!"    }",
  c!"    packet.add(AVP::from_bytes(FRAMED_INTERFACE_ID_TYPE, value));",
  c!"    Ok(())",
  c!"}",
  c!"/// Lookup a `framed_interface_id` fixed-length octets value from a packet.",
  c!"///",
  c!"/// It returns the first looked up value. If there is no associated value with `framed_interface_id`, it returns `None`.",
  c!"pub fn lookup_framed_interface_id(packet: &Packet) -> Option<Vec<u8>> {",
  c!"    packet",
  c!"        .lookup(FRAMED_INTERFACE_ID_TYPE)",
  c!"        .map(|v| v.encode_bytes())",
  c!"}",
  c!"/// Lookup all of the `framed_interface_id` fixed-length octets value from a packet.",
  c!"pub fn lookup_all_framed_interface_id(packet: &Packet) -> Vec<Vec<u8>> {",
  c!"    let mut vec = Vec::new();",
  c!"    for avp in packet.lookup_all(FRAMED_INTERFACE_ID_TYPE) {",
  c!"        vec.push(avp.encode_bytes())",
  c!"    }",
  c!"    vec",
  c!"}",
  c!"",
  c!"pub const FRAMED_IPV6_PREFIX_TYPE: AVPType = 97;",
  c!"/// Delete all of `framed_ipv6_prefix` values from a packet.",
  c!"pub fn delete_framed_ipv6_prefix(packet: &mut Packet) {",
  c!"    packet.delete(FRAMED_IPV6_PREFIX_TYPE);",
  c!"}",
  c!"/// Add `framed_ipv6_prefix` ipv6 prefix value to a packet.",
  c!"pub fn add_framed_ipv6_prefix(packet: &mut Packet, value: &[u8]) -> Result<(), AVPError> {",
  c!"    packet.add(AVP::from_ipv6_prefix(FRAMED_IPV6_PREFIX_TYPE, value)?);",
  c!"    Ok(())",
  c!"}",
  c!"/// Lookup a `framed_ipv6_prefix` ipv6 prefix value from a packet.",
  c!"///",
  c!"/// It returns the first looked up value. If there is no associated value with `framed_ipv6_prefix`, it returns `None`.",
  c!"pub fn lookup_framed_ipv6_prefix(packet: &Packet) -> Option<Result<Vec<u8>, AVPError>> {",
  c!"    packet",
  c!"        .lookup(FRAMED_IPV6_PREFIX_TYPE)",
  c!"        .map(|v| v.encode_ipv6_prefix())",
  c!"}",
  c!"/// Lookup all of the `framed_ipv6_prefix` ipv6 prefix value from a packet.",
  c!"pub fn lookup_all_framed_ipv6_prefix(packet: &Packet) -> Result<Vec<Vec<u8>>, AVPError> {",
  c!"    let mut vec = Vec::new();",
  c!"    for avp in packet.lookup_all(FRAMED_IPV6_PREFIX_TYPE) {",
  c!"        vec.push(avp.encode_ipv6_prefix()?)",
  c!"    }",
  c!"    Ok(vec)",
  c!"}",
  c!"",
  c!"pub const LOGIN_IPV6_HOST_TYPE: AVPType = 98;",
  c!"/// Delete all of `login_ipv6_host` values from a packet.",
  c!"pub fn delete_login_ipv6_host(packet: &mut Packet) {",
  c!"    packet.delete(LOGIN_IPV6_HOST_TYPE);",
  c!"}"]

noncomputable def rfc3162Module_2 : List Str := [
  c!"/// Add `login_ipv6_host` ipv6addr value to a packet.",
  c!"pub fn add_login_ipv6_host(packet: &mut Packet, value: &Ipv6Addr) {",
  c!"    packet.add(AVP::from_ipv6(LOGIN_IPV6_HOST_TYPE, value));",
  c!"}",
  c!"/// Lookup a `login_ipv6_host` ipv6addr value from a packet.",
  c!"///",
  c!"/// It returns the first looked up value. If there is no associated value with `login_ipv6_host`, it returns `None`.",
  c!"pub fn lookup_login_ipv6_host(packet: &Packet) -> Option<Result<Ipv6Addr, AVPError>> {",
  c!"    packet.lookup(LOGIN_IPV6_HOST_TYPE).map(|v| v.encode_ipv6())",
  c!"}",
  c!"/// Lookup all of the `login_ipv6_host` ipv6addr value from a packet.",
  c!"pub fn lookup_all_login_ipv6_host(packet: &Packet) -> Result<Vec<Ipv6Addr>, AVPError> {",
  c!"    let mut vec = Vec::new();",
  c!"    for avp in packet.lookup_all(LOGIN_IPV6_HOST_TYPE) {",
  c!"        vec.push(avp.encode_ipv6()?)",
  c!"    }",
  c!"    Ok(vec)",
  c!"}",
  c!"",
  c!"pub const FRAMED_IPV6_ROUTE_TYPE: AVPType = 99;",
  c!"/// Delete all of `framed_ipv6_route` values from a packet.",
  c!"pub fn delete_framed_ipv6_route(packet: &mut Packet) {",
  c!"    packet.delete(FRAMED_IPV6_ROUTE_TYPE);",
  c!"}",
  c!"/// Add `framed_ipv6_route` string value to a packet.",
  c!"pub fn add_framed_ipv6_route(packet: &mut Packet, value: &str) {",
  c!"    packet.add(AVP::from_string(FRAMED_IPV6_ROUTE_TYPE, value));",
  c!"}",
  c!"/// Lookup a `framed_ipv6_route` string value from a packet.",
  c!"///",
  c!"/// It returns the first looked up value. If there is no associated value with `framed_ipv6_route`, it returns `None`.",
  c!"pub fn lookup_framed_ipv6_route(packet: &Packet) -> Option<Result<String, AVPError>> {",
  c!"    packet",
  c!"        .lookup(FRAMED_IPV6_ROUTE_TYPE)",
  c!"        .map(|v| v.encode_string())",
  c!"}",
  c!"/// Lookup all of the `framed_ipv6_route` string value from a packet.",
  c!"pub fn lookup_all_framed_ipv6_route(packet: &Packet) -> Result<Vec<String>, AVPError> {",
  c!"    let mut vec = Vec::new();",
  c!"    for avp in packet.lookup_all(FRAMED_IPV6_ROUTE_TYPE) {",
  c!"        vec.push(avp.encode_string()?)",
  c!"    }",
  c!"    Ok(vec)",
  c!"}",
  c!"",
  c!"pub const FRAMED_IPV6_POOL_TYPE: AVPType = 100;",
  c!"/// Delete all of `framed_ipv6_pool` values from a packet.",
  c!"pub fn delete_framed_ipv6_pool(packet: &mut Packet) {",
  c!"    packet.delete(FRAMED_IPV6_POOL_TYPE);",
  c!"}",
  c!"/// Add `framed_ipv6_pool` string value to a packet.",
  c!"pub fn add_framed_ipv6_pool(packet: &mut Packet, value: &str) {",
  c!"    packet.add(AVP::from_string(FRAMED_IPV6_POOL_TYPE, value));",
  c!"}",
  c!"/// Lookup a `framed_ipv6_pool` string value from a packet.",
  c!"///",
  c!"/// It returns the first looked up value. If there is no associated value with `framed_ipv6_pool`, it returns `None`.",
  c!"pub fn lookup_framed_ipv6_pool(packet: &Packet) -> Option<Result<String, AVPError>> {",
  c!"    packet",
  c!"        .lookup(FRAMED_IPV6_POOL_TYPE)"]

noncomputable def rfc3162Module_3 : List Str := [
  c!"        .map(|v| v.encode_string())",
  c!"}",
  c!"/// Lookup all of the `framed_ipv6_pool` string value from a packet.",
  c!"pub fn lookup_all_framed_ipv6_pool(packet: &Packet) -> Result<Vec<String>, AVPError> {",
  c!"    let mut vec = Vec::new();",
  c!"    for avp in packet.lookup_all(FRAMED_IPV6_POOL_TYPE) {",
  c!"        vec.push(avp.encode_string()?)",
  c!"    }",
  c!"    Ok(vec)",
  c!"}"]

/-- The lines of radius/src/core/rfc3162.rs (1-190). -/
noncomputable def rfc3162Module : List Str :=
  rfc3162Module_0 ++ rfc3162Module_1 ++ rfc3162Module_2 ++ rfc3162Module_3

noncomputable def rfc3576Module_0 : List Str := [
  c!"// Code generated by machine generator; DO NOT EDIT.",
  c!"",
  c!"//! Utility for rfc3576 packet.",
  c!"//!",
  c!"//! This module handles the packet according to the following definition:",
  c!"//! ```text",
  c!"//! //! # -*- text -*-",
  c!"//! # Copyright (C) 2020 The FreeRADIUS Server project and contributors",
  c!"//! # This work is licensed under CC-BY version 4.0 https://creativecommons.org/licenses/by/4.0",
  c!"//! # Version $Id$",
  c!"//! #",
  c!"//! #    Attributes and values defined in RFC 3576.",
  c!"//! #    http://www.ietf.org/rfc/rfc3576.txt",
  c!"//! #",
  c!"//! #    $Id$",
  c!"//! #",
  c!"//! ATTRIBUTE    Error-Cause                101    integer",
  c!"//!",
  c!"//! #    Service Types",
  c!"//!",
  c!"//! VALUE    Service-Type            Authorize-Only        17",
  c!"//!",
  c!"//! #    Error causes",
  c!"//!",
  c!"//! VALUE    Error-Cause            Residual-Context-Removed    201",
  c!"//! VALUE    Error-Cause            Invalid-EAP-Packet    202",
  c!"//! VALUE    Error-Cause            Unsupported-Attribute    401",
  c!"//! VALUE    Error-Cause            Missing-Attribute    402",
  c!"//! VALUE    Error-Cause            NAS-Identification-Mismatch    403",
  c!"//! VALUE    Error-Cause            Invalid-Request        404",
  c!"//! VALUE    Error-Cause            Unsupported-Service    405",
  c!"//! VALUE    Error-Cause            Unsupported-Extension    406",
  c!"//! VALUE    Error-Cause            Administratively-Prohibited    501",
  c!"//! VALUE    Error-Cause            Proxy-Request-Not-Routable    502",
  c!"//! VALUE    Error-Cause            Session-Context-Not-Found    503",
  c!"//! VALUE    Error-Cause            Session-Context-Not-Removable    504",
  c!"//! VALUE    Error-Cause            Proxy-Processing-Error    505",
  c!"//! VALUE    Error-Cause            Resources-Unavailable    506",
  c!"//! VALUE    Error-Cause            Request-Initiated    507",
  c!"//! ```",
  c!"",
  c!"use crate::core::avp::{AVPError, AVPType, AVP};",
  c!"use crate::core::packet::Packet;",
  c!"",
  c!"use crate::core::rfc2865;",
  c!"",
  c!"pub const ERROR_CAUSE_TYPE: AVPType = 101;",
  c!"/// Delete all of `error_cause` values from a packet.",
  c!"pub fn delete_error_cause(packet: &mut Packet) {",
  c!"    packet.delete(ERROR_CAUSE_TYPE);",
  c!"}",
  c!"/// Add `error_cause` value-defined integer value to a packet.",
  c!"pub fn add_error_cause(packet: &mut Packet, value: ErrorCause) {",
  c!"    packet.add(AVP::from_u32(ERROR_CAUSE_TYPE, value));",
  c!"}",
  c!"/// Lookup a `error_cause` value-defined integer value from a packet.",
  c!"///",
  c!"/// It returns the first looked up value. If there is no associated value with `error_cause`, it returns `None`.",
  c!"pub fn lookup_error_cause(packet: &Packet) -> Option<Result<ErrorCause, AVPError>> {",
  c!"    packet"]

noncomputable def rfc3576Module_1 : List Str := [
  c!"        .lookup(ERROR_CAUSE_TYPE)",
  c!"        .map(|v| Ok(v.encode_u32()? as ErrorCause))",
  c!"}",
  c!"/// Lookup all of the `error_cause` value-defined integer value from a packet.",
  c!"pub fn lookup_all_error_cause(packet: &Packet) -> Result<Vec<ErrorCause>, AVPError> {",
  c!"    let mut vec = Vec::new();",
  c!"    for avp in packet.lookup_all(ERROR_CAUSE_TYPE) {",
  c!"        vec.push(avp.encode_u32()? as ErrorCause)",
  c!"    }",
  c!"    Ok(vec)",
  c!"}",
  c!"",
  c!"pub type ErrorCause = u32;",
  c!"pub const ERROR_CAUSE_RESIDUAL_CONTEXT_REMOVED: ErrorCause = 201;",
  c!"pub const ERROR_CAUSE_INVALID_EAP_PACKET: ErrorCause = 202;",
  c!"pub const ERROR_CAUSE_UNSUPPORTED_ATTRIBUTE: ErrorCause = 401;",
  c!"pub const ERROR_CAUSE_MISSING_ATTRIBUTE: ErrorCause = 402;",
  c!"pub const ERROR_CAUSE_NAS_IDENTIFICATION_MISMATCH: ErrorCause = 403;",
  c!"pub const ERROR_CAUSE_INVALID_REQUEST: ErrorCause = 404;",
  c!"pub const ERROR_CAUSE_UNSUPPORTED_SERVICE: ErrorCause = 405;",
  c!"pub const ERROR_CAUSE_UNSUPPORTED_EXTENSION: ErrorCause = 406;",
  c!"pub const ERROR_CAUSE_ADMINISTRATIVELY_PROHIBITED: ErrorCause = 501;",
  c!"pub const ERROR_CAUSE_PROXY_REQUEST_NOT_ROUTABLE: ErrorCause = 502;",
  c!"pub const ERROR_CAUSE_SESSION_CONTEXT_NOT_FOUND: ErrorCause = 503;",
  c!"pub const ERROR_CAUSE_SESSION_CONTEXT_NOT_REMOVABLE: ErrorCause = 504;",
  c!"pub const ERROR_CAUSE_PROXY_PROCESSING_ERROR: ErrorCause = 505;",
  c!"pub const ERROR_CAUSE_RESOURCES_UNAVAILABLE: ErrorCause = 506;",
  c!"pub const ERROR_CAUSE_REQUEST_INITIATED: ErrorCause = 507;",
  c!"",
  c!"pub const SERVICE_TYPE_AUTHORIZE_ONLY: rfc2865::ServiceType = 17;"]

/-- The lines of radius/src/core/rfc3576.rs (1-90). -/
noncomputable def rfc3576Module : List Str :=
  rfc3576Module_0 ++ rfc3576Module_1

noncomputable def rfc3580Module_0 : List Str := [
  c!"// Code generated by machine generator; DO NOT EDIT.",
  c!"",
  c!"//! Utility for rfc3580 packet.",
  c!"//!",
  c!"//! This module handles the packet according to the following definition:",
  c!"//! ```text",
  c!"//! //! # -*- text -*-",
  c!"//! # Copyright (C) 2020 The FreeRADIUS Server project and contributors",
  c!"//! # This work is licensed under CC-BY version 4.0 https://creativecommons.org/licenses/by/4.0",
  c!"//! # Version $Id$",
  c!"//! #",
  c!"//! #    Attributes and values defined in RFC 3580.",
  c!"//! #    http://www.ietf.org/rfc/rfc3580.txt",
  c!"//! #",
  c!"//! #    $Id$",
  c!"//! #",
  c!"//! VALUE    Acct-Terminate-Cause        Supplicant-Restart    19",
  c!"//! VALUE    Acct-Terminate-Cause        Reauthentication-Failure    20",
  c!"//! VALUE    Acct-Terminate-Cause        Port-Reinit        21",
  c!"//! VALUE    Acct-Terminate-Cause        Port-Disabled        22",
  c!"//!",
  c!"//! VALUE    NAS-Port-Type            Token-Ring        20",
  c!"//! VALUE    NAS-Port-Type            FDDI            21",
  c!"//!",
  c!"//! VALUE    Tunnel-Type            VLAN            13",
  c!"//! ```",
  c!"",
  c!"use crate::core::rfc2865;",
  c!"use crate::core::rfc2866;",
  c!"",
  c!"use crate::core::rfc2868;",
  c!"",
  c!"pub const ACCT_TERMINATE_CAUSE_SUPPLICANT_RESTART: rfc2866::AcctTerminateCause = 19;",
  c!"pub const ACCT_TERMINATE_CAUSE_REAUTHENTICATION_FAILURE: rfc2866::AcctTerminateCause = 20;",
  c!"pub const ACCT_TERMINATE_CAUSE_PORT_REINIT: rfc2866::AcctTerminateCause = 21;",
  c!"pub const ACCT_TERMINATE_CAUSE_PORT_DISABLED: rfc2866::AcctTerminateCause = 22;",
  c!"",
  c!"pub const NAS_PORT_TYPE_TOKEN_RING: rfc2865::NasPortType = 20;",
  c!"pub const NAS_PORT_TYPE_FDDI: rfc2865::NasPortType = 21;",
  c!"",
  c!"pub const TUNNEL_TYPE_VLAN: rfc2868::TunnelType = 13;"]

/-- The lines of radius/src/core/rfc3580.rs (1-41). -/
noncomputable def rfc3580Module : List Str :=
  rfc3580Module_0

noncomputable def rfc4072Module_0 : List Str := [
  c!"// Code generated by machine generator; DO NOT EDIT.",
  c!"",
  c!"//! Utility for rfc4072 packet.",
  c!"//!",
  c!"//! This module handles the packet according to the following definition:",
  c!"//! ```text",
  c!"//! //! # -*- text -*-",
  c!"//! # Copyright (C) 2020 The FreeRADIUS Server project and contributors",
  c!"//! # This work is licensed under CC-BY version 4.0 https://creativecommons.org/licenses/by/4.0",
  c!"//! # Version $Id$",
  c!"//! #",
  c!"//! #    Attributes and values defined in RFC 4072",
  c!"//! #    http://www.ietf.org/rfc/rfc4072.txt",
  c!"//! #",
  c!"//! #    $Id$",
  c!"//! #",
  c!"//!",
  c!"//! ATTRIBUTE    EAP-Key-Name                102    octets",
  c!"//! ```",
  c!"",
  c!"use crate::core::avp::{AVPType, AVP};",
  c!"use crate::core::packet::Packet;",
  c!"",
  c!"pub const EAP_KEY_NAME_TYPE: AVPType = 102;",
  c!"/// Delete all of `eap_key_name` values from a packet.",
  c!"pub fn delete_eap_key_name(packet: &mut Packet) {",
  c!"    packet.delete(EAP_KEY_NAME_TYPE);",
  c!"}",
  c!"/// Add `eap_key_name` octets value to a packet.",
  c!"pub fn add_eap_key_name(packet: &mut Packet, value: &[u8]) {",
  c!"    packet.add(AVP::from_bytes(EAP_KEY_NAME_TYPE, value));",
  c!"}",
  c!"/// Lookup a `eap_key_name` octets value from a packet.",
  c!"///",
  c!"/// It returns the first looked up value. If there is no associated value with `eap_key_name`, it returns `None`.",
  c!"pub fn lookup_eap_key_name(packet: &Packet) -> Option<Vec<u8>> {",
  c!"    packet.lookup(EAP_KEY_NAME_TYPE).map(|v| v.encode_bytes())",
  c!"}",
  c!"/// Lookup all of the `eap_key_name` octets value from a packet.",
  c!"pub fn lookup_all_eap_key_name(packet: &Packet) -> Vec<Vec<u8>> {",
  c!"    let mut vec = Vec::new();",
  c!"    for avp in packet.lookup_all(EAP_KEY_NAME_TYPE) {",
  c!"        vec.push(avp.encode_bytes())",
  c!"    }",
  c!"    vec",
  c!"}"]

/-- The lines of radius/src/core/rfc4072.rs (1-46). -/
noncomputable def rfc4072Module : List Str :=
  rfc4072Module_0

noncomputable def rfc4372Module_0 : List Str := [
  c!"// Code generated by machine generator; DO NOT EDIT.",
  c!"",
  c!"//! Utility for rfc4372 packet.",
  c!"//!",
  c!"//! This module handles the packet according to the following definition:",
  c!"//! ```text",
  c!"//! //! # -*- text -*-",
  c!"//! # Copyright (C) 2020 The FreeRADIUS Server project and contributors",
  c!"//! # This work is licensed under CC-BY version 4.0 https://creativecommons.org/licenses/by/4.0",
  c!"//! # Version $Id$",
  c!"//! #",
  c!"//! #    Attributes and values defined in RFC 4372.",
  c!"//! #    http://www.ietf.org/rfc/rfc4372.txt",
  c!"//! #",
  c!"//! #    $Id$",
  c!"//! #",
  c!"//! ATTRIBUTE    Chargeable-User-Identity        89    octets",
  c!"//! ```",
  c!"",
  c!"use crate::core::avp::{AVPType, AVP};",
  c!"use crate::core::packet::Packet;",
  c!"",
  c!"pub const CHARGEABLE_USER_IDENTITY_TYPE: AVPType = 89;",
  c!"/// Delete all of `chargeable_user_identity` values from a packet.",
  c!"pub fn delete_chargeable_user_identity(packet: &mut Packet) {",
  c!"    packet.delete(CHARGEABLE_USER_IDENTITY_TYPE);",
  c!"}",
  c!"/// Add `chargeable_user_identity` octets value to a packet.",
  c!"pub fn add_chargeable_user_identity(packet: &mut Packet, value: &[u8]) {",
  c!"    packet.add(AVP::from_bytes(CHARGEABLE_USER_IDENTITY_TYPE, value));",
  c!"}",
  c!"/// Lookup a `chargeable_user_identity` octets value from a packet.",
  c!"///",
  c!"/// It returns the first looked up value. If there is no associated value with `chargeable_user_identity`, it returns `None`.",
  c!"pub fn lookup_chargeable_user_identity(packet: &Packet) -> Option<Vec<u8>> {",
  c!"    packet",
  c!"        .lookup(CHARGEABLE_USER_IDENTITY_TYPE)",
  c!"        .map(|v| v.encode_bytes())",
  c!"}",
  c!"/// Lookup all of the `chargeable_user_identity` octets value from a packet.",
  c!"pub fn lookup_all_chargeable_user_identity(packet: &Packet) -> Vec<Vec<u8>> {",
  c!"    let mut vec = Vec::new();",
  c!"    for avp in packet.lookup_all(CHARGEABLE_USER_IDENTITY_TYPE) {",
  c!"        vec.push(avp.encode_bytes())",
  c!"    }",
  c!"    vec",
  c!"}"]

/-- The lines of radius/src/core/rfc4372.rs (1-47). -/
noncomputable def rfc4372Module : List Str :=
  rfc4372Module_0

noncomputable def rfc4603Module_0 : List Str := [
  c!"// Code generated by machine generator; DO NOT EDIT.",
  c!"",
  c!"//! Utility for rfc4603 packet.",
  c!"//!",
  c!"//! This module handles the packet according to the following definition:",
  c!"//! ```text",
  c!"//! //! # -*- text -*-",
  c!"//! # Copyright (C) 2020 The FreeRADIUS Server project and contributors",
  c!"//! # This work is licensed under CC-BY version 4.0 https://creativecommons.org/licenses/by/4.0",
  c!"//! # Version $Id$",
  c!"//! ##############################################################################",
  c!"//! #",
  c!"//! #    Attributes and values defined in RFC 4603.",
  c!"//! #    http://www.ietf.org/rfc/rfc4603.txt",
  c!"//! #",
  c!"//! #    $Id$",
  c!"//! #",
  c!"//! ##############################################################################",
  c!"//!",
  c!"//! VALUE    NAS-Port-Type            PPPoA            30",
  c!"//! VALUE    NAS-Port-Type            PPPoEoA            31",
  c!"//! VALUE    NAS-Port-Type            PPPoEoE            32",
  c!"//! VALUE    NAS-Port-Type            PPPoEoVLAN        33",
  c!"//! VALUE    NAS-Port-Type            PPPoEoQinQ        34",
  c!"//!",
  c!"//! ```",
  c!"",
  c!"use crate::core::rfc2865;",
  c!"",
  c!"pub const NAS_PORT_TYPE_PP_PO_A: rfc2865::NasPortType = 30;",
  c!"pub const NAS_PORT_TYPE_PP_PO_EO_A: rfc2865::NasPortType = 31;",
  c!"pub const NAS_PORT_TYPE_PP_PO_EO_E: rfc2865::NasPortType = 32;",
  c!"pub const NAS_PORT_TYPE_PP_PO_EO_VLAN: rfc2865::NasPortType = 33;",
  c!"pub const NAS_PORT_TYPE_PP_PO_EO_QIN_Q: rfc2865::NasPortType = 34;"]

/-- The lines of radius/src/core/rfc4603.rs (1-34). -/
noncomputable def rfc4603Module : List Str :=
  rfc4603Module_0

noncomputable def rfc4675Module_0 : List Str := [
  c!"// Code generated by machine generator; DO NOT EDIT.",
  c!"",
  c!"//! Utility for rfc4675 packet.",
  c!"//!",
  c!"//! This module handles the packet according to the following definition:",
  c!"//! ```text",
  c!"//! //! # -*- text -*-",
  c!"//! # Copyright (C) 2020 The FreeRADIUS Server project and contributors",
  c!"//! # This work is licensed under CC-BY version 4.0 https://creativecommons.org/licenses/by/4.0",
  c!"//! # Version $Id$",
  c!"//! #",
  c!"//! #    Attributes and values defined in RFC 4675.",
  c!"//! #    http://www.ietf.org/rfc/rfc4675.txt",
  c!"//! #",
  c!"//! #    $Id$",
  c!"//! #",
  c!"//!",
  c!"//! #",
  c!"//! #  High byte = '1' (0x31) means the frames are tagged.",
  c!"//! #  High byte = '2' (0x32) means the frames are untagged.",
  c!"//! #",
  c!"//! #  Next 12 bits MUST be zero.",
  c!"//! #",
  c!"//! #  Lower 12 bits is the IEEE-802.1Q VLAN VID.",
  c!"//! #",
  c!"//! ATTRIBUTE    Egress-VLANID                56    integer",
  c!"//! ATTRIBUTE    Ingress-Filters                57    integer",
  c!"//!",
  c!"//! #",
  c!"//! #  First byte == '1' (0x31) means that the frames are tagged.",
  c!"//! #  First byte == '2' (0x32) means that the frames are untagged.",
  c!"//! #",
  c!"//! ATTRIBUTE    Egress-VLAN-Name            58    string",
  c!"//! ATTRIBUTE    User-Priority-Table            59    octets",
  c!"//!",
  c!"//! VALUE    Ingress-Filters            Enabled            1",
  c!"//! VALUE    Ingress-Filters            Disabled        2",
  c!"//! ```",
  c!"",
  c!"use crate::core::avp::{AVPError, AVPType, AVP};",
  c!"use crate::core::packet::Packet;",
  c!"",
  c!"pub const EGRESS_VLANID_TYPE: AVPType = 56;",
  c!"/// Delete all of `egress_vlanid` values from a packet.",
  c!"pub fn delete_egress_vlanid(packet: &mut Packet) {",
  c!"    packet.delete(EGRESS_VLANID_TYPE);",
  c!"}",
  c!"/// Add `egress_vlanid` integer value to a packet.",
  c!"pub fn add_egress_vlanid(packet: &mut Packet, value: u32) {",
  c!"    packet.add(AVP::from_u32(EGRESS_VLANID_TYPE, value));",
  c!"}",
  c!"/// Lookup a `egress_vlanid` integer value from a packet.",
  c!"///",
  c!"/// It returns the first looked up value. If there is no associated value with `egress_vlanid`, it returns `None`.",
  c!"pub fn lookup_egress_vlanid(packet: &Packet) -> Option<Result<u32, AVPError>> {",
  c!"    packet.lookup(EGRESS_VLANID_TYPE).map(|v| v.encode_u32())",
  c!"}",
  c!"/// Lookup all of the `egress_vlanid` integer value from a packet.",
  c!"pub fn lookup_all_egress_vlanid(packet: &Packet) -> Result<Vec<u32>, AVPError> {",
  c!"    let mut vec = Vec::new();"]

noncomputable def rfc4675Module_1 : List Str := [
  c!"    for avp in packet.lookup_all(EGRESS_VLANID_TYPE) {",
  c!"        vec.push(avp.encode_u32()?)",
  c!"    }",
  c!"    Ok(vec)",
  c!"}",
  c!"",
  c!"pub const INGRESS_FILTERS_TYPE: AVPType = 57;",
  c!"/// Delete all of `ingress_filters` values from a packet.",
  c!"pub fn delete_ingress_filters(packet: &mut Packet) {",
  c!"    packet.delete(INGRESS_FILTERS_TYPE);",
  c!"}",
  c!"/// Add `ingress_filters` value-defined integer value to a packet.",
  c!"pub fn add_ingress_filters(packet: &mut Packet, value: IngressFilters) {",
  c!"    packet.add(AVP::from_u32(INGRESS_FILTERS_TYPE, value));",
  c!"}",
  c!"/// Lookup a `ingress_filters` value-defined integer value from a packet.",
  c!"///",
  c!"/// It returns the first looked up value. If there is no associated value with `ingress_filters`, it returns `None`.",
  c!"pub fn lookup_ingress_filters(packet: &Packet) -> Option<Result<IngressFilters, AVPError>> {",
  c!"    packet",
  c!"        .lookup(INGRESS_FILTERS_TYPE)",
  c!"        .map(|v| Ok(v.encode_u32()? as IngressFilters))",
  c!"}",
  c!"/// Lookup all of the `ingress_filters` value-defined integer value from a packet.",
  c!"pub fn lookup_all_ingress_filters(packet: &Packet) -> Result<Vec<IngressFilters>, AVPError> {",
  c!"    let mut vec = Vec::new();",
  c!"    for avp in packet.lookup_all(INGRESS_FILTERS_TYPE) {",
  c!"        vec.push(avp.encode_u32()? as IngressFilters)",
  c!"    }",
  c!"    Ok(vec)",
  c!"}",
  c!"",
  c!"pub const EGRESS_VLAN_NAME_TYPE: AVPType = 58;",
  c!"/// Delete all of `egress_vlan_name` values from a packet.",
  c!"pub fn delete_egress_vlan_name(packet: &mut Packet) {",
  c!"    packet.delete(EGRESS_VLAN_NAME_TYPE);",
  c!"}",
  c!"/// Add `egress_vlan_name` string value to a packet.",
  c!"pub fn add_egress_vlan_name(packet: &mut Packet, value: &str) {",
  c!"    packet.add(AVP::from_string(EGRESS_VLAN_NAME_TYPE, value));",
  c!"}",
  c!"/// Lookup a `egress_vlan_name` string value from a packet.",
  c!"///",
  c!"/// It returns the first looked up value. If there is no associated value with `egress_vlan_name`, it returns `None`.",
  c!"pub fn lookup_egress_vlan_name(packet: &Packet) -> Option<Result<String, AVPError>> {",
  c!"    packet",
  c!"        .lookup(EGRESS_VLAN_NAME_TYPE)",
  c!"        .map(|v| v.encode_string())",
  c!"}",
  c!"/// Lookup all of the `egress_vlan_name` string value from a packet.",
  c!"pub fn lookup_all_egress_vlan_name(packet: &Packet) -> Result<Vec<String>, AVPError> {",
  c!"    let mut vec = Vec::new();",
  c!"    for avp in packet.lookup_all(EGRESS_VLAN_NAME_TYPE) {",
  c!"        vec.push(avp.encode_string()?)",
  c!"    }",
  c!"    Ok(vec)",
  c!"}",
  c!"",
  c!"pub const USER_PRIORITY_TABLE_TYPE: AVPType = 59;",
  c!"/// Delete all of `user_priority_table` values from a packet."]

noncomputable def rfc4675Module_2 : List Str := [
  c!"pub fn delete_user_priority_table(packet: &mut Packet) {",
  c!"    packet.delete(USER_PRIORITY_TABLE_TYPE);",
  c!"}",
  c!"/// Add `user_priority_table` octets value to a packet.",
  c!"pub fn add_user_priority_table(packet: &mut Packet, value: &[u8]) {",
  c!"    packet.add(AVP::from_bytes(USER_PRIORITY_TABLE_TYPE, value));",
  c!"}",
  c!"/// Lookup a `user_priority_table` octets value from a packet.",
  c!"///",
  c!"/// It returns the first looked up value. If there is no associated value with `user_priority_table`, it returns `None`.",
  c!"pub fn lookup_user_priority_table(packet: &Packet) -> Option<Vec<u8>> {",
  c!"    packet",
  c!"        .lookup(USER_PRIORITY_TABLE_TYPE)",
  c!"        .map(|v| v.encode_bytes())",
  c!"}",
  c!"/// Lookup all of the `user_priority_table` octets value from a packet.",
  c!"pub fn lookup_all_user_priority_table(packet: &Packet) -> Vec<Vec<u8>> {",
  c!"    let mut vec = Vec::new();",
  c!"    for avp in packet.lookup_all(USER_PRIORITY_TABLE_TYPE) {",
  c!"        vec.push(avp.encode_bytes())",
  c!"    }",
  c!"    vec",
  c!"}",
  c!"",
  c!"pub type IngressFilters = u32;",
  c!"pub const INGRESS_FILTERS_ENABLED: IngressFilters = 1;",
  c!"pub const INGRESS_FILTERS_DISABLED: IngressFilters = 2;"]

/-- The lines of radius/src/core/rfc4675.rs (1-147). -/
noncomputable def rfc4675Module : List Str :=
  rfc4675Module_0 ++ rfc4675Module_1 ++ rfc4675Module_2

noncomputable def rfc4818Module_0 : List Str := [
  c!"// Code generated by machine generator; DO NOT EDIT.",
  c!"",
  c!"//! Utility for rfc4818 packet.",
  c!"//!",
  c!"//! This module handles the packet according to the following definition:",
  c!"//! ```text",
  c!"//! //! # -*- text -*-",
  c!"//! # Copyright (C) 2020 The FreeRADIUS Server project and contributors",
  c!"//! # This work is licensed under CC-BY version 4.0 https://creativecommons.org/licenses/by/4.0",
  c!"//! # Version $Id$",
  c!"//! ##############################################################################",
  c!"//! #",
  c!"//! #    Attributes and values defined in RFC 4818.",
  c!"//! #    http://www.ietf.org/rfc/rfc4818.txt",
  c!"//! #",
  c!"//! #    $Id$",
  c!"//! #",
  c!"//! ##############################################################################",
  c!"//!",
  c!"//! ATTRIBUTE    Delegated-IPV6-Prefix            123    ipv6prefix",
  c!"//! ```",
  c!"",
  c!"use crate::core::avp::{AVPError, AVPType, AVP};",
  c!"use crate::core::packet::Packet;",
  c!"",
  c!"pub const DELEGATED_IPV6_PREFIX_TYPE: AVPType = 123;",
  c!"/// Delete all of `delegated_ipv6_prefix` values from a packet.",
  c!"pub fn delete_delegated_ipv6_prefix(packet: &mut Packet) {",
  c!"    packet.delete(DELEGATED_IPV6_PREFIX_TYPE);",
  c!"}",
  c!"/// Add `delegated_ipv6_prefix` ipv6 prefix value to a packet.",
  c!"pub fn add_delegated_ipv6_prefix(packet: &mut Packet, value: &[u8]) -> Result<(), AVPError> {",
  c!"    packet.add(AVP::from_ipv6_prefix(DELEGATED_IPV6_PREFIX_TYPE, value)?);",
  c!"    Ok(())",
  c!"}",
  c!"/// Lookup a `delegated_ipv6_prefix` ipv6 prefix value from a packet.",
  c!"///",
  c!"/// It returns the first looked up value. If there is no associated value with `delegated_ipv6_prefix`, it returns `None`.",
  c!"pub fn lookup_delegated_ipv6_prefix(packet: &Packet) -> Option<Result<Vec<u8>, AVPError>> {",
  c!"    packet",
  c!"        .lookup(DELEGATED_IPV6_PREFIX_TYPE)",
  c!"        .map(|v| v.encode_ipv6_prefix())",
  c!"}",
  c!"/// Lookup all of the `delegated_ipv6_prefix` ipv6 prefix value from a packet.",
  c!"pub fn lookup_all_delegated_ipv6_prefix(packet: &Packet) -> Result<Vec<Vec<u8>>, AVPError> {",
  c!"    let mut vec = Vec::new();",
  c!"    for avp in packet.lookup_all(DELEGATED_IPV6_PREFIX_TYPE) {",
  c!"        vec.push(avp.encode_ipv6_prefix()?)",
  c!"    }",
  c!"    Ok(vec)",
  c!"}"]

/-- The lines of radius/src/core/rfc4818.rs (1-51). -/
noncomputable def rfc4818Module : List Str :=
  rfc4818Module_0

noncomputable def rfc4849Module_0 : List Str := [
  c!"// Code generated by machine generator; DO NOT EDIT.",
  c!"",
  c!"//! Utility for rfc4849 packet.",
  c!"//!",
  c!"//! This module handles the packet according to the following definition:",
  c!"//! ```text",
  c!"//! //! # -*- text -*-",
  c!"//! # Copyright (C) 2020 The FreeRADIUS Server project and contributors",
  c!"//! # This work is licensed under CC-BY version 4.0 https://creativecommons.org/licenses/by/4.0",
  c!"//! # Version $Id$",
  c!"//! #",
  c!"//! #    Attributes and values defined in RFC 4849.",
  c!"//! #    http://www.ietf.org/rfc/rfc4849.txt",
  c!"//! #",
  c!"//! #    $Id$",
  c!"//! #",
  c!"//! ATTRIBUTE    NAS-Filter-Rule                92    string",
  c!"//! ```",
  c!"",
  c!"use crate::core::avp::{AVPError, AVPType, AVP};",
  c!"use crate::core::packet::Packet;",
  c!"",
  c!"pub const NAS_FILTER_RULE_TYPE: AVPType = 92;",
  c!"/// Delete all of `nas_filter_rule` values from a packet.",
  c!"pub fn delete_nas_filter_rule(packet: &mut Packet) {",
  c!"    packet.delete(NAS_FILTER_RULE_TYPE);",
  c!"}",
  c!"/// Add `nas_filter_rule` string value to a packet.",
  c!"pub fn add_nas_filter_rule(packet: &mut Packet, value: &str) {",
  c!"    packet.add(AVP::from_string(NAS_FILTER_RULE_TYPE, value));",
  c!"}",
  c!"/// Lookup a `nas_filter_rule` string value from a packet.",
  c!"///",
  c!"/// It returns the first looked up value. If there is no associated value with `nas_filter_rule`, it returns `None`.",
  c!"pub fn lookup_nas_filter_rule(packet: &Packet) -> Option<Result<String, AVPError>> {",
  c!"    packet",
  c!"        .lookup(NAS_FILTER_RULE_TYPE)",
  c!"        .map(|v| v.encode_string())",
  c!"}",
  c!"/// Lookup all of the `nas_filter_rule` string value from a packet.",
  c!"pub fn lookup_all_nas_filter_rule(packet: &Packet) -> Result<Vec<String>, AVPError> {",
  c!"    let mut vec = Vec::new();",
  c!"    for avp in packet.lookup_all(NAS_FILTER_RULE_TYPE) {",
  c!"        vec.push(avp.encode_string()?)",
  c!"    }",
  c!"    Ok(vec)",
  c!"}"]

/-- The lines of radius/src/core/rfc4849.rs (1-47). -/
noncomputable def rfc4849Module : List Str :=
  rfc4849Module_0

noncomputable def rfc5090Module_0 : List Str := [
  c!"// Code generated by machine generator; DO NOT EDIT.",
  c!"",
  c!"//! Utility for rfc5090 packet.",
  c!"//!",
  c!"//! This module handles the packet according to the following definition:",
  c!"//! ```text",
  c!"//! //! # -*- text -*-",
  c!"//! # Copyright (C) 2020 The FreeRADIUS Server project and contributors",
  c!"//! # This work is licensed under CC-BY version 4.0 https://creativecommons.org/licenses/by/4.0",
  c!"//! # Version $Id$",
  c!"//! #",
  c!"//! #    Attributes and values defined in RFC 5090.",
  c!"//! #    http://www.ietf.org/rfc/rfc5090.txt",
  c!"//! #",
  c!"//! #    $Id$",
  c!"//! #",
  c!"//! ATTRIBUTE    Digest-Response                103    string",
  c!"//! ATTRIBUTE    Digest-Realm                104    string",
  c!"//! ATTRIBUTE    Digest-Nonce                105    string",
  c!"//! ATTRIBUTE    Digest-Response-Auth            106    string",
  c!"//! ATTRIBUTE    Digest-Nextnonce            107    string",
  c!"//! ATTRIBUTE    Digest-Method                108    string",
  c!"//! ATTRIBUTE    Digest-URI                109    string",
  c!"//! ATTRIBUTE    Digest-Qop                110    string",
  c!"//! ATTRIBUTE    Digest-Algorithm            111    string",
  c!"//! ATTRIBUTE    Digest-Entity-Body-Hash            112    string",
  c!"//! ATTRIBUTE    Digest-CNonce                113    string",
  c!"//! ATTRIBUTE    Digest-Nonce-Count            114    string",
  c!"//! ATTRIBUTE    Digest-Username                115    string",
  c!"//! ATTRIBUTE    Digest-Opaque                116    string",
  c!"//! ATTRIBUTE    Digest-Auth-Param            117    string",
  c!"//! ATTRIBUTE    Digest-AKA-Auts                118    string",
  c!"//! ATTRIBUTE    Digest-Domain                119    string",
  c!"//! ATTRIBUTE    Digest-Stale                120    string",
  c!"//! ATTRIBUTE    Digest-HA1                121    string",
  c!"//! ATTRIBUTE    SIP-AOR                    122    string",
  c!"//! ```",
  c!"",
  c!"use crate::core::avp::{AVPError, AVPType, AVP};",
  c!"use crate::core::packet::Packet;",
  c!"",
  c!"pub const DIGEST_RESPONSE_TYPE: AVPType = 103;",
  c!"/// Delete all of `digest_response` values from a packet.",
  c!"pub fn delete_digest_response(packet: &mut Packet) {",
  c!"    packet.delete(DIGEST_RESPONSE_TYPE);",
  c!"}",
  c!"/// Add `digest_response` string value to a packet.",
  c!"pub fn add_digest_response(packet: &mut Packet, value: &str) {",
  c!"    packet.add(AVP::from_string(DIGEST_RESPONSE_TYPE, value));",
  c!"}",
  c!"/// Lookup a `digest_response` string value from a packet.",
  c!"///",
  c!"/// It returns the first looked up value. If there is no associated value with `digest_response`, it returns `None`.",
  c!"pub fn lookup_digest_response(packet: &Packet) -> Option<Result<String, AVPError>> {",
  c!"    packet",
  c!"        .lookup(DIGEST_RESPONSE_TYPE)",
  c!"        .map(|v| v.encode_string())",
  c!"}",
  c!"/// Lookup all of the `digest_response` string value from a packet.",
  c!"pub fn lookup_all_digest_response(packet: &Packet) -> Result<Vec<String>, AVPError> {"]

noncomputable def rfc5090Module_1 : List Str := [
  c!"    let mut vec = Vec::new();",
  c!"    for avp in packet.lookup_all(DIGEST_RESPONSE_TYPE) {",
  c!"        vec.push(avp.encode_string()?)",
  c!"    }",
  c!"    Ok(vec)",
  c!"}",
  c!"",
  c!"pub const DIGEST_REALM_TYPE: AVPType = 104;",
  c!"/// Delete all of `digest_realm` values from a packet.",
  c!"pub fn delete_digest_realm(packet: &mut Packet) {",
  c!"    packet.delete(DIGEST_REALM_TYPE);",
  c!"}",
  c!"/// Add `digest_realm` string value to a packet.",
  c!"pub fn add_digest_realm(packet: &mut Packet, value: &str) {",
  c!"    packet.add(AVP::from_string(DIGEST_REALM_TYPE, value));",
  c!"}",
  c!"/// Lookup a `digest_realm` string value from a packet.",
  c!"///",
  c!"/// It returns the first looked up value. If there is no associated value with `digest_realm`, it returns `None`.",
  c!"pub fn lookup_digest_realm(packet: &Packet) -> Option<Result<String, AVPError>> {",
  c!"    packet.lookup(DIGEST_REALM_TYPE).map(|v| v.encode_string())",
  c!"}",
  c!"/// Lookup all of the `digest_realm` string value from a packet.",
  c!"pub fn lookup_all_digest_realm(packet: &Packet) -> Result<Vec<String>, AVPError> {",
  c!"    let mut vec = Vec::new();",
  c!"    for avp in packet.lookup_all(DIGEST_REALM_TYPE) {",
  c!"        vec.push(avp.encode_string()?)",
  c!"    }",
  c!"    Ok(vec)",
  c!"}",
  c!"",
  c!"pub const DIGEST_NONCE_TYPE: AVPType = 105;",
  c!"/// Delete all of `digest_nonce` values from a packet.",
  c!"pub fn delete_digest_nonce(packet: &mut Packet) {",
  c!"    packet.delete(DIGEST_NONCE_TYPE);",
  c!"}",
  c!"/// Add `digest_nonce` string value to a packet.",
  c!"pub fn add_digest_nonce(packet: &mut Packet, value: &str) {",
  c!"    packet.add(AVP::from_string(DIGEST_NONCE_TYPE, value));",
  c!"}",
  c!"/// Lookup a `digest_nonce` string value from a packet.",
  c!"///",
  c!"/// It returns the first looked up value. If there is no associated value with `digest_nonce`, it returns `None`.",
  c!"pub fn lookup_digest_nonce(packet: &Packet) -> Option<Result<String, AVPError>> {",
  c!"    packet.lookup(DIGEST_NONCE_TYPE).map(|v| v.encode_string())",
  c!"}",
  c!"/// Lookup all of the `digest_nonce` string value from a packet.",
  c!"pub fn lookup_all_digest_nonce(packet: &Packet) -> Result<Vec<String>, AVPError> {",
  c!"    let mut vec = Vec::new();",
  c!"    for avp in packet.lookup_all(DIGEST_NONCE_TYPE) {",
  c!"        vec.push(avp.encode_string()?)",
  c!"    }",
  c!"    Ok(vec)",
  c!"}",
  c!"",
  c!"pub const DIGEST_RESPONSE_AUTH_TYPE: AVPType = 106;",
  c!"/// Delete all of `digest_response_auth` values from a packet.",
  c!"pub fn delete_digest_response_auth(packet: &mut Packet) {",
  c!"    packet.delete(DIGEST_RESPONSE_AUTH_TYPE);",
  c!"}"]

noncomputable def rfc5090Module_2 : List Str := [
  c!"/// Add `digest_response_auth` string value to a packet.",
  c!"pub fn add_digest_response_auth(packet: &mut Packet, value: &str) {",
  c!"    packet.add(AVP::from_string(DIGEST_RESPONSE_AUTH_TYPE, value));",
  c!"}",
  c!"/// Lookup a `digest_response_auth` string value from a packet.",
  c!"///",
  c!"/// It returns the first looked up value. If there is no associated value with `digest_response_auth`, it returns `None`.",
  c!"pub fn lookup_digest_response_auth(packet: &Packet) -> Option<Result<String, AVPError>> {",
  c!"    packet",
  c!"        .lookup(DIGEST_RESPONSE_AUTH_TYPE)",
  c!"        .map(|v| v.encode_string())",
  c!"}",
  c!"/// Lookup all of the `digest_response_auth` string value from a packet.",
  c!"pub fn lookup_all_digest_response_auth(packet: &Packet) -> Result<Vec<String>, AVPError> {",
  c!"    let mut vec = Vec::new();",
  c!"    for avp in packet.lookup_all(DIGEST_RESPONSE_AUTH_TYPE) {",
  c!"        vec.push(avp.encode_string()?)",
  c!"    }",
  c!"    Ok(vec)",
  c!"}",
  c!"",
  c!"pub const DIGEST_NEXTNONCE_TYPE: AVPType = 107;",
  c!"/// Delete all of `digest_nextnonce` values from a packet.",
  c!"pub fn delete_digest_nextnonce(packet: &mut Packet) {",
  c!"    packet.delete(DIGEST_NEXTNONCE_TYPE);",
  c!"}",
  c!"/// Add `digest_nextnonce` string value to a packet.",
  c!"pub fn add_digest_nextnonce(packet: &mut Packet, value: &str) {",
  c!"    packet.add(AVP::from_string(DIGEST_NEXTNONCE_TYPE, value));",
  c!"}",
  c!"/// Lookup a `digest_nextnonce` string value from a packet.",
  c!"///",
  c!"/// It returns the first looked up value. If there is no associated value with `digest_nextnonce`, it returns `None`.",
  c!"pub fn lookup_digest_nextnonce(packet: &Packet) -> Option<Result<String, AVPError>> {",
  c!"    packet",
  c!"        .lookup(DIGEST_NEXTNONCE_TYPE)",
  c!"        .map(|v| v.encode_string())",
  c!"}",
  c!"/// Lookup all of the `digest_nextnonce` string value from a packet.",
  c!"pub fn lookup_all_digest_nextnonce(packet: &Packet) -> Result<Vec<String>, AVPError> {",
  c!"    let mut vec = Vec::new();",
  c!"    for avp in packet.lookup_all(DIGEST_NEXTNONCE_TYPE) {",
  c!"        vec.push(avp.encode_string()?)",
  c!"    }",
  c!"    Ok(vec)",
  c!"}",
  c!"",
  c!"pub const DIGEST_METHOD_TYPE: AVPType = 108;",
  c!"/// Delete all of `digest_method` values from a packet.",
  c!"pub fn delete_digest_method(packet: &mut Packet) {",
  c!"    packet.delete(DIGEST_METHOD_TYPE);",
  c!"}",
  c!"/// Add `digest_method` string value to a packet.",
  c!"pub fn add_digest_method(packet: &mut Packet, value: &str) {",
  c!"    packet.add(AVP::from_string(DIGEST_METHOD_TYPE, value));",
  c!"}",
  c!"/// Lookup a `digest_method` string value from a packet.",
  c!"///",
  c!"/// It returns the first looked up value. If there is no associated value with `digest_method`, it returns `None`.",
  c!"pub fn lookup_digest_method(packet: &Packet) -> Option<Result<String, AVPError>> {"]

noncomputable def rfc5090Module_3 : List Str := [
  c!"    packet.lookup(DIGEST_METHOD_TYPE).map(|v| v.encode_string())",
  c!"}",
  c!"/// Lookup all of the `digest_method` string value from a packet.",
  c!"pub fn lookup_all_digest_method(packet: &Packet) -> Result<Vec<String>, AVPError> {",
  c!"    let mut vec = Vec::new();",
  c!"    for avp in packet.lookup_all(DIGEST_METHOD_TYPE) {",
  c!"        vec.push(avp.encode_string()?)",
  c!"    }",
  c!"    Ok(vec)",
  c!"}",
  c!"",
  c!"pub const DIGEST_URI_TYPE: AVPType = 109;",
  c!"/// Delete all of `digest_uri` values from a packet.",
  c!"pub fn delete_digest_uri(packet: &mut Packet) {",
  c!"    packet.delete(DIGEST_URI_TYPE);",
  c!"}",
  c!"/// Add `digest_uri` string value to a packet.",
  c!"pub fn add_digest_uri(packet: &mut Packet, value: &str) {",
  c!"    packet.add(AVP::from_string(DIGEST_URI_TYPE, value));",
  c!"}",
  c!"/// Lookup a `digest_uri` string value from a packet.",
  c!"///",
  c!"/// It returns the first looked up value. If there is no associated value with `digest_uri`, it returns `None`.",
  c!"pub fn lookup_digest_uri(packet: &Packet) -> Option<Result<String, AVPError>> {",
  c!"    packet.lookup(DIGEST_URI_TYPE).map(|v| v.encode_string())",
  c!"}",
  c!"/// Lookup all of the `digest_uri` string value from a packet.",
  c!"pub fn lookup_all_digest_uri(packet: &Packet) -> Result<Vec<String>, AVPError> {",
  c!"    let mut vec = Vec::new();",
  c!"    for avp in packet.lookup_all(DIGEST_URI_TYPE) {",
  c!"        vec.push(avp.encode_string()?)",
  c!"    }",
  c!"    Ok(vec)",
  c!"}",
  c!"",
  c!"pub const DIGEST_QOP_TYPE: AVPType = 110;",
  c!"/// Delete all of `digest_qop` values from a packet.",
  c!"pub fn delete_digest_qop(packet: &mut Packet) {",
  c!"    packet.delete(DIGEST_QOP_TYPE);",
  c!"}",
  c!"/// Add `digest_qop` string value to a packet.",
  c!"pub fn add_digest_qop(packet: &mut Packet, value: &str) {",
  c!"    packet.add(AVP::from_string(DIGEST_QOP_TYPE, value));",
  c!"}",
  c!"/// Lookup a `digest_qop` string value from a packet.",
  c!"///",
  c!"/// It returns the first looked up value. If there is no associated value with `digest_qop`, it returns `None`.",
  c!"pub fn lookup_digest_qop(packet: &Packet) -> Option<Result<String, AVPError>> {",
  c!"    packet.lookup(DIGEST_QOP_TYPE).map(|v| v.encode_string())",
  c!"}",
  c!"/// Lookup all of the `digest_qop` string value from a packet.",
  c!"pub fn lookup_all_digest_qop(packet: &Packet) -> Result<Vec<String>, AVPError> {",
  c!"    let mut vec = Vec::new();",
  c!"    for avp in packet.lookup_all(DIGEST_QOP_TYPE) {",
  c!"        vec.push(avp.encode_string()?)",
  c!"    }",
  c!"    Ok(vec)",
  c!"}",
  c!"",
  c!"pub const DIGEST_ALGORITHM_TYPE: AVPType = 111;"]

noncomputable def rfc5090Module_4 : List Str := [
  c!"/// Delete all of `digest_algorithm` values from a packet.",
  c!"pub fn delete_digest_algorithm(packet: &mut Packet) {",
  c!"    packet.delete(DIGEST_ALGORITHM_TYPE);",
  c!"}",
  c!"/// Add `digest_algorithm` string value to a packet.",
  c!"pub fn add_digest_algorithm(packet: &mut Packet, value: &str) {",
  c!"    packet.add(AVP::from_string(DIGEST_ALGORITHM_TYPE, value));",
  c!"}",
  c!"/// Lookup a `digest_algorithm` string value from a packet.",
  c!"///",
  c!"/// It returns the first looked up value. If there is no associated value with `digest_algorithm`, it returns `None`.",
  c!"pub fn lookup_digest_algorithm(packet: &Packet) -> Option<Result<String, AVPError>> {",
  c!"    packet",
  c!"        .lookup(DIGEST_ALGORITHM_TYPE)",
  c!"        .map(|v| v.encode_string())",
  c!"}",
  c!"/// Lookup all of the `digest_algorithm` string value from a packet.",
  c!"pub fn lookup_all_digest_algorithm(packet: &Packet) -> Result<Vec<String>, AVPError> {",
  c!"    let mut vec = Vec::new();",
  c!"    for avp in packet.lookup_all(DIGEST_ALGORITHM_TYPE) {",
  c!"        vec.push(avp.encode_string()?)",
  c!"    }",
  c!"    Ok(vec)",
  c!"}",
  c!"",
  c!"pub const DIGEST_ENTITY_BODY_HASH_TYPE: AVPType = 112;",
  c!"/// Delete all of `digest_entity_body_hash` values from a packet.",
  c!"pub fn delete_digest_entity_body_hash(packet: &mut Packet) {",
  c!"    packet.delete(DIGEST_ENTITY_BODY_HASH_TYPE);",
  c!"}",
  c!"/// Add `digest_entity_body_hash` string value to a packet.",
  c!"pub fn add_digest_entity_body_hash(packet: &mut Packet, value: &str) {",
  c!"    packet.add(AVP::from_string(DIGEST_ENTITY_BODY_HASH_TYPE, value));",
  c!"}",
  c!"/// Lookup a `digest_entity_body_hash` string value from a packet.",
  c!"///",
  c!"/// It returns the first looked up value. If there is no associated value with `digest_entity_body_hash`, it returns `None`.",
  c!"pub fn lookup_digest_entity_body_hash(packet: &Packet) -> Option<Result<String, AVPError>> {",
  c!"    packet",
  c!"        .lookup(DIGEST_ENTITY_BODY_HASH_TYPE)",
  c!"        .map(|v| v.encode_string())",
  c!"}",
  c!"/// Lookup all of the `digest_entity_body_hash` string value from a packet.",
  c!"pub fn lookup_all_digest_entity_body_hash(packet: &Packet) -> Result<Vec<String>, AVPError> {",
  c!"    let mut vec = Vec::new();",
  c!"    for avp in packet.lookup_all(DIGEST_ENTITY_BODY_HASH_TYPE) {",
  c!"        vec.push(avp.encode_string()?)",
  c!"    }",
  c!"    Ok(vec)",
  c!"}",
  c!"",
  c!"pub const DIGEST_C_NONCE_TYPE: AVPType = 113;",
  c!"/// Delete all of `digest_c_nonce` values from a packet.",
  c!"pub fn delete_digest_c_nonce(packet: &mut Packet) {",
  c!"    packet.delete(DIGEST_C_NONCE_TYPE);",
  c!"}",
  c!"/// Add `digest_c_nonce` string value to a packet.",
  c!"pub fn add_digest_c_nonce(packet: &mut Packet, value: &str) {",
  c!"    packet.add(AVP::from_string(DIGEST_C_NONCE_TYPE, value));",
  c!"}"]

noncomputable def rfc5090Module_5 : List Str := [
  c!"/// Lookup a `digest_c_nonce` string value from a packet.",
  c!"///",
  c!"/// It returns the first looked up value. If there is no associated value with `digest_c_nonce`, it returns `None`.",
  c!"pub fn lookup_digest_c_nonce(packet: &Packet) -> Option<Result<String, AVPError>> {",
  c!"    packet",
  c!"        .lookup(DIGEST_C_NONCE_TYPE)",
  c!"        .map(|v| v.encode_string())",
  c!"}",
  c!"/// Lookup all of the `digest_c_nonce` string value from a packet.",
  c!"pub fn lookup_all_digest_c_nonce(packet: &Packet) -> Result<Vec<String>, AVPError> {",
  c!"    let mut vec = Vec::new();",
  c!"    for avp in packet.lookup_all(DIGEST_C_NONCE_TYPE) {",
  c!"        vec.push(avp.encode_string()?)",
  c!"    }",
  c!"    Ok(vec)",
  c!"}",
  c!"",
  c!"pub const DIGEST_NONCE_COUNT_TYPE: AVPType = 114;",
  c!"/// Delete all of `digest_nonce_count` values from a packet.",
  c!"pub fn delete_digest_nonce_count(packet: &mut Packet) {",
  c!"    packet.delete(DIGEST_NONCE_COUNT_TYPE);",
  c!"}",
  c!"/// Add `digest_nonce_count` string value to a packet.",
  c!"pub fn add_digest_nonce_count(packet: &mut Packet, value: &str) {",
  c!"    packet.add(AVP::from_string(DIGEST_NONCE_COUNT_TYPE, value));",
  c!"}",
  c!"/// Lookup a `digest_nonce_count` string value from a packet.",
  c!"///",
  c!"/// It returns the first looked up value. If there is no associated value with `digest_nonce_count`, it returns `None`.",
  c!"pub fn lookup_digest_nonce_count(packet: &Packet) -> Option<Result<String, AVPError>> {",
  c!"    packet",
  c!"        .lookup(DIGEST_NONCE_COUNT_TYPE)",
  c!"        .map(|v| v.encode_string())",
  c!"}",
  c!"/// Lookup all of the `digest_nonce_count` string value from a packet.",
  c!"pub fn lookup_all_digest_nonce_count(packet: &Packet) -> Result<Vec<String>, AVPError> {",
  c!"    let mut vec = Vec::new();",
  c!"    for avp in packet.lookup_all(DIGEST_NONCE_COUNT_TYPE) {",
  c!"        vec.push(avp.encode_string()?)",
  c!"    }",
  c!"    Ok(vec)",
  c!"}",
  c!"",
  c!"pub const DIGEST_USERNAME_TYPE: AVPType = 115;",
  c!"/// Delete all of `digest_username` values from a packet.",
  c!"pub fn delete_digest_username(packet: &mut Packet) {",
  c!"    packet.delete(DIGEST_USERNAME_TYPE);",
  c!"}",
  c!"/// Add `digest_username` string value to a packet.",
  c!"pub fn add_digest_username(packet: &mut Packet, value: &str) {",
  c!"    packet.add(AVP::from_string(DIGEST_USERNAME_TYPE, value));",
  c!"}",
  c!"/// Lookup a `digest_username` string value from a packet.",
  c!"///",
  c!"/// It returns the first looked up value. If there is no associated value with `digest_username`, it returns `None`.",
  c!"pub fn lookup_digest_username(packet: &Packet) -> Option<Result<String, AVPError>> {",
  c!"    packet",
  c!"        .lookup(DIGEST_USERNAME_TYPE)",
  c!"        .map(|v| v.encode_string())",
  c!"}"]

noncomputable def rfc5090Module_6 : List Str := [
  c!"/// Lookup all of the `digest_username` string value from a packet.",
  c!"pub fn lookup_all_digest_username(packet: &Packet) -> Result<Vec<String>, AVPError> {",
  c!"    let mut vec = Vec::new();",
  c!"    for avp in packet.lookup_all(DIGEST_USERNAME_TYPE) {",
  c!"        vec.push(avp.encode_string()?)",
  c!"    }",
  c!"    Ok(vec)",
  c!"}",
  c!"",
  c!"pub const DIGEST_OPAQUE_TYPE: AVPType = 116;",
  c!"/// Delete all of `digest_opaque` values from a packet.",
  c!"pub fn delete_digest_opaque(packet: &mut Packet) {",
  c!"    packet.delete(DIGEST_OPAQUE_TYPE);",
  c!"}",
  c!"/// Add `digest_opaque` string value to a packet.",
  c!"pub fn add_digest_opaque(packet: &mut Packet, value: &str) {",
  c!"    packet.add(AVP::from_string(DIGEST_OPAQUE_TYPE, value));",
  c!"}",
  c!"/// Lookup a `digest_opaque` string value from a packet.",
  c!"///",
  c!"/// It returns the first looked up value. If there is no associated value with `digest_opaque`, it returns `None`.",
  c!"pub fn lookup_digest_opaque(packet: &Packet) -> Option<Result<String, AVPError>> {",
  c!"    packet.lookup(DIGEST_OPAQUE_TYPE).map(|v| v.encode_string())",
  c!"}",
  c!"/// Lookup all of the `digest_opaque` string value from a packet.",
  c!"pub fn lookup_all_digest_opaque(packet: &Packet) -> Result<Vec<String>, AVPError> {",
  c!"    let mut vec = Vec::new();",
  c!"    for avp in packet.lookup_all(DIGEST_OPAQUE_TYPE) {",
  c!"        vec.push(avp.encode_string()?)",
  c!"    }",
  c!"    Ok(vec)",
  c!"}",
  c!"",
  c!"pub const DIGEST_AUTH_PARAM_TYPE: AVPType = 117;",
  c!"/// Delete all of `digest_auth_param` values from a packet.",
  c!"pub fn delete_digest_auth_param(packet: &mut Packet) {",
  c!"    packet.delete(DIGEST_AUTH_PARAM_TYPE);",
  c!"}",
  c!"/// Add `digest_auth_param` string value to a packet.",
  c!"pub fn add_digest_auth_param(packet: &mut Packet, value: &str) {",
  c!"    packet.add(AVP::from_string(DIGEST_AUTH_PARAM_TYPE, value));",
  c!"}",
  c!"/// Lookup a `digest_auth_param` string value from a packet.",
  c!"///",
  c!"/// It returns the first looked up value. If there is no associated value with `digest_auth_param`, it returns `None`.",
  c!"pub fn lookup_digest_auth_param(packet: &Packet) -> Option<Result<String, AVPError>> {",
  c!"    packet",
  c!"        .lookup(DIGEST_AUTH_PARAM_TYPE)",
  c!"        .map(|v| v.encode_string())",
  c!"}",
  c!"/// Lookup all of the `digest_auth_param` string value from a packet.",
  c!"pub fn lookup_all_digest_auth_param(packet: &Packet) -> Result<Vec<String>, AVPError> {",
  c!"    let mut vec = Vec::new();",
  c!"    for avp in packet.lookup_all(DIGEST_AUTH_PARAM_TYPE) {",
  c!"        vec.push(avp.encode_string()?)",
  c!"    }",
  c!"    Ok(vec)",
  c!"}",
  c!"",
  c!"pub const DIGEST_AKA_AUTS_TYPE: AVPType = 118;"]

noncomputable def rfc5090Module_7 : List Str := [
  c!"/// Delete all of `digest_aka_auts` values from a packet.",
  c!"pub fn delete_digest_aka_auts(packet: &mut Packet) {",
  c!"    packet.delete(DIGEST_AKA_AUTS_TYPE);",
  c!"}",
  c!"/// Add `digest_aka_auts` string value to a packet.",
  c!"pub fn add_digest_aka_auts(packet: &mut Packet, value: &str) {",
  c!"    packet.add(AVP::from_string(DIGEST_AKA_AUTS_TYPE, value));",
  c!"}",
  c!"/// Lookup a `digest_aka_auts` string value from a packet.",
  c!"///",
  c!"/// It returns the first looked up value. If there is no associated value with `digest_aka_auts`, it returns `None`.",
  c!"pub fn lookup_digest_aka_auts(packet: &Packet) -> Option<Result<String, AVPError>> {",
  c!"    packet",
  c!"        .lookup(DIGEST_AKA_AUTS_TYPE)",
  c!"        .map(|v| v.encode_string())",
  c!"}",
  c!"/// Lookup all of the `digest_aka_auts` string value from a packet.",
  c!"pub fn lookup_all_digest_aka_auts(packet: &Packet) -> Result<Vec<String>, AVPError> {",
  c!"    let mut vec = Vec::new();",
  c!"    for avp in packet.lookup_all(DIGEST_AKA_AUTS_TYPE) {",
  c!"        vec.push(avp.encode_string()?)",
  c!"    }",
  c!"    Ok(vec)",
  c!"}",
  c!"",
  c!"pub const DIGEST_DOMAIN_TYPE: AVPType = 119;",
  c!"/// Delete all of `digest_domain` values from a packet.",
  c!"pub fn delete_digest_domain(packet: &mut Packet) {",
  c!"    packet.delete(DIGEST_DOMAIN_TYPE);",
  c!"}",
  c!"/// Add `digest_domain` string value to a packet.",
  c!"pub fn add_digest_domain(packet: &mut Packet, value: &str) {",
  c!"    packet.add(AVP::from_string(DIGEST_DOMAIN_TYPE, value));",
  c!"}",
  c!"/// Lookup a `digest_domain` string value from a packet.",
  c!"///",
  c!"/// It returns the first looked up value. If there is no associated value with `digest_domain`, it returns `None`.",
  c!"pub fn lookup_digest_domain(packet: &Packet) -> Option<Result<String, AVPError>> {",
  c!"    packet.lookup(DIGEST_DOMAIN_TYPE).map(|v| v.encode_string())",
  c!"}",
  c!"/// Lookup all of the `digest_domain` string value from a packet.",
  c!"pub fn lookup_all_digest_domain(packet: &Packet) -> Result<Vec<String>, AVPError> {",
  c!"    let mut vec = Vec::new();",
  c!"    for avp in packet.lookup_all(DIGEST_DOMAIN_TYPE) {",
  c!"        vec.push(avp.encode_string()?)",
  c!"    }",
  c!"    Ok(vec)",
  c!"}",
  c!"",
  c!"pub const DIGEST_STALE_TYPE: AVPType = 120;",
  c!"/// Delete all of `digest_stale` values from a packet.",
  c!"pub fn delete_digest_stale(packet: &mut Packet) {",
  c!"    packet.delete(DIGEST_STALE_TYPE);",
  c!"}",
  c!"/// Add `digest_stale` string value to a packet.",
  c!"pub fn add_digest_stale(packet: &mut Packet, value: &str) {",
  c!"    packet.add(AVP::from_string(DIGEST_STALE_TYPE, value));",
  c!"}",
  c!"/// Lookup a `digest_stale` string value from a packet.",
  c!"///"]

noncomputable def rfc5090Module_8 : List Str := [
  c!"/// It returns the first looked up value. If there is no associated value with `digest_stale`, it returns `None`.",
  c!"pub fn lookup_digest_stale(packet: &Packet) -> Option<Result<String, AVPError>> {",
  c!"    packet.lookup(DIGEST_STALE_TYPE).map(|v| v.encode_string())",
  c!"}",
  c!"/// Lookup all of the `digest_stale` string value from a packet.",
  c!"pub fn lookup_all_digest_stale(packet: &Packet) -> Result<Vec<String>, AVPError> {",
  c!"    let mut vec = Vec::new();",
  c!"    for avp in packet.lookup_all(DIGEST_STALE_TYPE) {",
  c!"        vec.push(avp.encode_string()?)",
  c!"    }",
  c!"    Ok(vec)",
  c!"}",
  c!"",
  c!"pub const DIGEST_HA1_TYPE: AVPType = 121;",
  c!"/// Delete all of `digest_ha1` values from a packet.",
  c!"pub fn delete_digest_ha1(packet: &mut Packet) {",
  c!"    packet.delete(DIGEST_HA1_TYPE);",
  c!"}",
  c!"/// Add `digest_ha1` string value to a packet.",
  c!"pub fn add_digest_ha1(packet: &mut Packet, value: &str) {",
  c!"    packet.add(AVP::from_string(DIGEST_HA1_TYPE, value));",
  c!"}",
  c!"/// Lookup a `digest_ha1` string value from a packet.",
  c!"///",
  c!"/// It returns the first looked up value. If there is no associated value with `digest_ha1`, it returns `None`.",
  c!"pub fn lookup_digest_ha1(packet: &Packet) -> Option<Result<String, AVPError>> {",
  c!"    packet.lookup(DIGEST_HA1_TYPE).map(|v| v.encode_string())",
  c!"}",
  c!"/// Lookup all of the `digest_ha1` string value from a packet.",
  c!"pub fn lookup_all_digest_ha1(packet: &Packet) -> Result<Vec<String>, AVPError> {",
  c!"    let mut vec = Vec::new();",
  c!"    for avp in packet.lookup_all(DIGEST_HA1_TYPE) {",
  c!"        vec.push(avp.encode_string()?)",
  c!"    }",
  c!"    Ok(vec)",
  c!"}",
  c!"",
  c!"pub const SIP_AOR_TYPE: AVPType = 122;",
  c!"/// Delete all of `sip_aor` values from a packet.",
  c!"pub fn delete_sip_aor(packet: &mut Packet) {",
  c!"    packet.delete(SIP_AOR_TYPE);",
  c!"}",
  c!"/// Add `sip_aor` string value to a packet.",
  c!"pub fn add_sip_aor(packet: &mut Packet, value: &str) {",
  c!"    packet.add(AVP::from_string(SIP_AOR_TYPE, value));",
  c!"}",
  c!"/// Lookup a `sip_aor` string value from a packet.",
  c!"///",
  c!"/// It returns the first looked up value. If there is no associated value with `sip_aor`, it returns `None`.",
  c!"pub fn lookup_sip_aor(packet: &Packet) -> Option<Result<String, AVPError>> {",
  c!"    packet.lookup(SIP_AOR_TYPE).map(|v| v.encode_string())",
  c!"}",
  c!"/// Lookup all of the `sip_aor` string value from a packet.",
  c!"pub fn lookup_all_sip_aor(packet: &Packet) -> Result<Vec<String>, AVPError> {",
  c!"    let mut vec = Vec::new();",
  c!"    for avp in packet.lookup_all(SIP_AOR_TYPE) {",
  c!"        vec.push(avp.encode_string()?)",
  c!"    }",
  c!"    Ok(vec)",
  c!"}"]

/-- The lines of radius/src/core/rfc5090.rs (1-540). -/
noncomputable def rfc5090Module : List Str :=
  rfc5090Module_0 ++ rfc5090Module_1 ++ rfc5090Module_2 ++ rfc5090Module_3 ++ rfc5090Module_4 ++ rfc5090Module_5 ++ rfc5090Module_6 ++ rfc5090Module_7 ++ rfc5090Module_8

noncomputable def rfc5176Module_0 : List Str := [
  c!"// Code generated by machine generator; DO NOT EDIT.",
  c!"",
  c!"//! Utility for rfc5176 packet.",
  c!"//!",
  c!"//! This module handles the packet according to the following definition:",
  c!"//! ```text",
  c!"//! //! # -*- text -*-",
  c!"//! # Copyright (C) 2020 The FreeRADIUS Server project and contributors",
  c!"//! # This work is licensed under CC-BY version 4.0 https://creativecommons.org/licenses/by/4.0",
  c!"//! # Version $Id$",
  c!"//! #",
  c!"//! #    Attributes and values defined in RFC 5176.",
  c!"//! #    http://www.ietf.org/rfc/rfc5176.txt",
  c!"//! #",
  c!"//! #    $Id$",
  c!"//! #",
  c!"//! VALUE    Error-Cause            Invalid-Attribute-Value    407",
  c!"//! VALUE    Error-Cause            Multiple-Session-Selection-Unsupported    508",
  c!"//! ```",
  c!"",
  c!"use crate::core::rfc3576;",
  c!"",
  c!"pub const ERROR_CAUSE_INVALID_ATTRIBUTE_VALUE: rfc3576::ErrorCause = 407;",
  c!"pub const ERROR_CAUSE_MULTIPLE_SESSION_SELECTION_UNSUPPORTED: rfc3576::ErrorCause = 508;"]

/-- The lines of radius/src/core/rfc5176.rs (1-24). -/
noncomputable def rfc5176Module : List Str :=
  rfc5176Module_0

noncomputable def rfc5607Module_0 : List Str := [
  c!"// Code generated by machine generator; DO NOT EDIT.",
  c!"",
  c!"//! Utility for rfc5607 packet.",
  c!"//!",
  c!"//! This module handles the packet according to the following definition:",
  c!"//! ```text",
  c!"//! //! # -*- text -*-",
  c!"//! # Copyright (C) 2020 The FreeRADIUS Server project and contributors",
  c!"//! # This work is licensed under CC-BY version 4.0 https://creativecommons.org/licenses/by/4.0",
  c!"//! # Version $Id$",
  c!"//! #",
  c!"//! #    Attributes and values defined in RFC 5607.",
  c!"//! #    http://www.ietf.org/rfc/rfc5607.txt",
  c!"//! #",
  c!"//! #    $Id$",
  c!"//! #",
  c!"//!",
  c!"//! VALUE    Service-Type            Framed-Management    18",
  c!"//!",
  c!"//! ATTRIBUTE    Framed-Management            133    integer",
  c!"//!",
  c!"//! VALUE    Framed-Management        SNMP            1",
  c!"//! VALUE    Framed-Management        Web-Based        2",
  c!"//! VALUE    Framed-Management        Netconf            3",
  c!"//! VALUE    Framed-Management        FTP            4",
  c!"//! VALUE    Framed-Management        TFTP            5",
  c!"//! VALUE    Framed-Management        SFTP            6",
  c!"//! VALUE    Framed-Management        RCP            7",
  c!"//! VALUE    Framed-Management        SCP            8",
  c!"//!",
  c!"//! ATTRIBUTE    Management-Transport-Protection        134    integer",
  c!"//!",
  c!"//! VALUE    Management-Transport-Protection    No-Protection        1",
  c!"//! VALUE    Management-Transport-Protection    Integrity-Protection    2",
  c!"//! VALUE    Management-Transport-Protection    Integrity-Confidentiality-Protection    3",
  c!"//!",
  c!"//! ATTRIBUTE    Management-Policy-Id            135    string",
  c!"//!",
  c!"//! ATTRIBUTE    Management-Privilege-Level        136    integer",
  c!"//! ```",
  c!"",
  c!"use crate::core::avp::{AVPError, AVPType, AVP};",
  c!"use crate::core::packet::Packet;",
  c!"",
  c!"use crate::core::rfc2865;",
  c!"",
  c!"pub const FRAMED_MANAGEMENT_TYPE: AVPType = 133;",
  c!"/// Delete all of `framed_management` values from a packet.",
  c!"pub fn delete_framed_management(packet: &mut Packet) {",
  c!"    packet.delete(FRAMED_MANAGEMENT_TYPE);",
  c!"}",
  c!"/// Add `framed_management` value-defined integer value to a packet.",
  c!"pub fn add_framed_management(packet: &mut Packet, value: FramedManagement) {",
  c!"    packet.add(AVP::from_u32(FRAMED_MANAGEMENT_TYPE, value));",
  c!"}",
  c!"/// Lookup a `framed_management` value-defined integer value from a packet.",
  c!"///",
  c!"/// It returns the first looked up value. If there is no associated value with `framed_management`, it returns `None`.",
  c!"pub fn lookup_framed_management(packet: &Packet) -> Option<Result<FramedManagement, AVPError>> {",
  c!"    packet"]

noncomputable def rfc5607Module_1 : List Str := [
  c!"        .lookup(FRAMED_MANAGEMENT_TYPE)",
  c!"        .map(|v| Ok(v.encode_u32()? as FramedManagement))",
  c!"}",
  c!"/// Lookup all of the `framed_management` value-defined integer value from a packet.",
  c!"pub fn lookup_all_framed_management(packet: &Packet) -> Result<Vec<FramedManagement>, AVPError> {",
  c!"    let mut vec = Vec::new();",
  c!"    for avp in packet.lookup_all(FRAMED_MANAGEMENT_TYPE) {",
  c!"        vec.push(avp.encode_u32()? as FramedManagement)",
  c!"    }",
  c!"    Ok(vec)",
  c!"}",
  c!"",
  c!"pub const MANAGEMENT_TRANSPORT_PROTECTION_TYPE: AVPType = 134;",
  c!"/// Delete all of `management_transport_protection` values from a packet.",
  c!"pub fn delete_management_transport_protection(packet: &mut Packet) {",
  c!"    packet.delete(MANAGEMENT_TRANSPORT_PROTECTION_TYPE);",
  c!"}",
  c!"/// Add `management_transport_protection` value-defined integer value to a packet.",
  c!"pub fn add_management_transport_protection(",
  c!"    packet: &mut Packet,",
  c!"    value: ManagementTransportProtection,",
  c!") {",
  c!"    packet.add(AVP::from_u32(MANAGEMENT_TRANSPORT_PROTECTION_TYPE, value));",
  c!"}",
  c!"/// Lookup a `management_transport_protection` value-defined integer value from a packet.",
  c!"///",
  c!"/// It returns the first looked up value. If there is no associated value with `management_transport_protection`, it returns `None`.",
  c!"pub fn lookup_management_transport_protection(",
  c!"    packet: &Packet,",
  c!") -> Option<Result<ManagementTransportProtection, AVPError>> {",
  c!"    packet",
  c!"        .lookup(MANAGEMENT_TRANSPORT_PROTECTION_TYPE)",
  c!"        .map(|v| Ok(v.encode_u32()? as ManagementTransportProtection))",
  c!"}",
  c!"/// Lookup all of the `management_transport_protection` value-defined integer value from a packet.",
  c!"pub fn lookup_all_management_transport_protection(",
  c!"    packet: &Packet,",
  c!") -> Result<Vec<ManagementTransportProtection>, AVPError> {",
  c!"    let mut vec = Vec::new();",
  c!"    for avp in packet.lookup_all(MANAGEMENT_TRANSPORT_PROTECTION_TYPE) {",
  c!"        vec.push(avp.encode_u32()? as ManagementTransportProtection)",
  c!"    }",
  c!"    Ok(vec)",
  c!"}",
  c!"",
  c!"pub const MANAGEMENT_POLICY_ID_TYPE: AVPType = 135;",
  c!"/// Delete all of `management_policy_id` values from a packet.",
  c!"pub fn delete_management_policy_id(packet: &mut Packet) {",
  c!"    packet.delete(MANAGEMENT_POLICY_ID_TYPE);",
  c!"}",
  c!"/// Add `management_policy_id` string value to a packet.",
  c!"pub fn add_management_policy_id(packet: &mut Packet, value: &str) {",
  c!"    packet.add(AVP::from_string(MANAGEMENT_POLICY_ID_TYPE, value));",
  c!"}",
  c!"/// Lookup a `management_policy_id` string value from a packet.",
  c!"///",
  c!"/// It returns the first looked up value. If there is no associated value with `management_policy_id`, it returns `None`.",
  c!"pub fn lookup_management_policy_id(packet: &Packet) -> Option<Result<String, AVPError>> {",
  c!"    packet",
  c!"        .lookup(MANAGEMENT_POLICY_ID_TYPE)"]

noncomputable def rfc5607Module_2 : List Str := [
  c!"        .map(|v| v.encode_string())",
  c!"}",
  c!"/// Lookup all of the `management_policy_id` string value from a packet.",
  c!"pub fn lookup_all_management_policy_id(packet: &Packet) -> Result<Vec<String>, AVPError> {",
  c!"    let mut vec = Vec::new();",
  c!"    for avp in packet.lookup_all(MANAGEMENT_POLICY_ID_TYPE) {",
  c!"        vec.push(avp.encode_string()?)",
  c!"    }",
  c!"    Ok(vec)",
  c!"}",
  c!"",
  c!"pub const MANAGEMENT_PRIVILEGE_LEVEL_TYPE: AVPType = 136;",
  c!"/// Delete all of `management_privilege_level` values from a packet.",
  c!"pub fn delete_management_privilege_level(packet: &mut Packet) {",
  c!"    packet.delete(MANAGEMENT_PRIVILEGE_LEVEL_TYPE);",
  c!"}",
  c!"/// Add `management_privilege_level` integer value to a packet.",
  c!"pub fn add_management_privilege_level(packet: &mut Packet, value: u32) {",
  c!"    packet.add(AVP::from_u32(MANAGEMENT_PRIVILEGE_LEVEL_TYPE, value));",
  c!"}",
  c!"/// Lookup a `management_privilege_level` integer value from a packet.",
  c!"///",
  c!"/// It returns the first looked up value. If there is no associated value with `management_privilege_level`, it returns `None`.",
  c!"pub fn lookup_management_privilege_level(packet: &Packet) -> Option<Result<u32, AVPError>> {",
  c!"    packet",
  c!"        .lookup(MANAGEMENT_PRIVILEGE_LEVEL_TYPE)",
  c!"        .map(|v| v.encode_u32())",
  c!"}",
  c!"/// Lookup all of the `management_privilege_level` integer value from a packet.",
  c!"pub fn lookup_all_management_privilege_level(packet: &Packet) -> Result<Vec<u32>, AVPError> {",
  c!"    let mut vec = Vec::new();",
  c!"    for avp in packet.lookup_all(MANAGEMENT_PRIVILEGE_LEVEL_TYPE) {",
  c!"        vec.push(avp.encode_u32()?)",
  c!"    }",
  c!"    Ok(vec)",
  c!"}",
  c!"",
  c!"pub type FramedManagement = u32;",
  c!"pub const FRAMED_MANAGEMENT_SNMP: FramedManagement = 1;",
  c!"pub const FRAMED_MANAGEMENT_WEB_BASED: FramedManagement = 2;",
  c!"pub const FRAMED_MANAGEMENT_NETCONF: FramedManagement = 3;",
  c!"pub const FRAMED_MANAGEMENT_FTP: FramedManagement = 4;",
  c!"pub const FRAMED_MANAGEMENT_TFTP: FramedManagement = 5;",
  c!"pub const FRAMED_MANAGEMENT_SFTP: FramedManagement = 6;",
  c!"pub const FRAMED_MANAGEMENT_RCP: FramedManagement = 7;",
  c!"pub const FRAMED_MANAGEMENT_SCP: FramedManagement = 8;",
  c!"",
  c!"pub type ManagementTransportProtection = u32;",
  c!"pub const MANAGEMENT_TRANSPORT_PROTECTION_NO_PROTECTION: ManagementTransportProtection = 1;",
  c!"pub const MANAGEMENT_TRANSPORT_PROTECTION_INTEGRITY_PROTECTION: ManagementTransportProtection = 2;",
  c!"pub const MANAGEMENT_TRANSPORT_PROTECTION_INTEGRITY_CONFIDENTIALITY_PROTECTION:",
  c!"    ManagementTransportProtection = 3;",
  c!"",
  c!"pub const SERVICE_TYPE_FRAMED_MANAGEMENT: rfc2865::ServiceType = 18;"]

/-- The lines of radius/src/core/rfc5607.rs (1-174). -/
noncomputable def rfc5607Module : List Str :=
  rfc5607Module_0 ++ rfc5607Module_1 ++ rfc5607Module_2

noncomputable def rfc5904Module_0 : List Str := [
  c!"// Code generated by machine generator; DO NOT EDIT.",
  c!"",
  c!"//! Utility for rfc5904 packet.",
  c!"//!",
  c!"//! This module handles the packet according to the following definition:",
  c!"//! ```text",
  c!"//! //! # -*- text -*-",
  c!"//! # Copyright (C) 2020 The FreeRADIUS Server project and contributors",
  c!"//! # This work is licensed under CC-BY version 4.0 https://creativecommons.org/licenses/by/4.0",
  c!"//! # Version $Id$",
  c!"//! #",
  c!"//! #    Attributes and values defined in RFC 5904.",
  c!"//! #    http://www.ietf.org/rfc/rfc5904.txt",
  c!"//! #",
  c!"//! #    $Id$",
  c!"//! #",
  c!"//!",
  c!"//! # The next two attributes are continued, like EAP-Message",
  c!"//! ATTRIBUTE    PKM-SS-Cert                137    octets    concat",
  c!"//! ATTRIBUTE    PKM-CA-Cert                138    octets    concat",
  c!"//!",
  c!"//! # 28 bytes of data, 7 integers",
  c!"//! ATTRIBUTE    PKM-Config-Settings            139    octets",
  c!"//! ATTRIBUTE    PKM-Cryptosuite-List            140    octets",
  c!"//! ATTRIBUTE    PKM-SAID                141    short",
  c!"//!",
  c!"//! # 6 bytes of data: SAID, 1 byte of type, 3 of cryptosuite",
  c!"//! ATTRIBUTE    PKM-SA-Descriptor            142    octets",
  c!"//!",
  c!"//! # 133 bytes of data: integer lifetime, 1 byte sequence, 128 bytes of key",
  c!"//! ATTRIBUTE    PKM-Auth-Key                143    octets",
  c!"//! ```",
  c!"",
  c!"use crate::core::avp::{AVPError, AVPType, AVP};",
  c!"use crate::core::packet::Packet;",
  c!"",
  c!"pub const PKM_SS_CERT_TYPE: AVPType = 137;",
  c!"/// Delete all of `pkm_ss_cert` values from a packet.",
  c!"pub fn delete_pkm_ss_cert(packet: &mut Packet) {",
  c!"    packet.delete(PKM_SS_CERT_TYPE);",
  c!"}",
  c!"pub fn add_pkm_ss_cert(packet: &mut Packet, value: &[u8]) {",
  c!"    packet.extend(",
  c!"        value",
  c!"            .chunks(253)",
  c!"            .map(|chunk| AVP::from_bytes(PKM_SS_CERT_TYPE, chunk))",
  c!"            .collect(),",
  c!"    );",
  c!"}",
  c!"pub fn lookup_pkm_ss_cert(packet: &Packet) -> Option<Vec<u8>> {",
  c!"    let avps = packet.lookup_all(PKM_SS_CERT_TYPE);",
  c!"    match avps.is_empty() {",
  c!"        true => None,",
  c!"        false => Some(avps.into_iter().fold(Vec::new(), |mut acc, v| {",
  c!"            acc.extend(v.encode_bytes());",
  c!"            acc",
  c!"        })),",
  c!"    }",
  c!"}",
  c!""]

noncomputable def rfc5904Module_1 : List Str := [
  c!"pub const PKM_CA_CERT_TYPE: AVPType = 138;",
  c!"/// Delete all of `pkm_ca_cert` values from a packet.",
  c!"pub fn delete_pkm_ca_cert(packet: &mut Packet) {",
  c!"    packet.delete(PKM_CA_CERT_TYPE);",
  c!"}",
  c!"pub fn add_pkm_ca_cert(packet: &mut Packet, value: &[u8]) {",
  c!"    packet.extend(",
  c!"        value",
  c!"            .chunks(253)",
  c!"            .map(|chunk| AVP::from_bytes(PKM_CA_CERT_TYPE, chunk))",
  c!"            .collect(),",
  c!"    );",
  c!"}",
  c!"pub fn lookup_pkm_ca_cert(packet: &Packet) -> Option<Vec<u8>> {",
  c!"    let avps = packet.lookup_all(PKM_CA_CERT_TYPE);",
  c!"    match avps.is_empty() {",
  c!"        true => None,",
  c!"        false => Some(avps.into_iter().fold(Vec::new(), |mut acc, v| {",
  c!"            acc.extend(v.encode_bytes());",
  c!"            acc",
  c!"        })),",
  c!"    }",
  c!"}",
  c!"",
  c!"pub const PKM_CONFIG_SETTINGS_TYPE: AVPType = 139;",
  c!"/// Delete all of `pkm_config_settings` values from a packet.",
  c!"pub fn delete_pkm_config_settings(packet: &mut Packet) {",
  c!"    packet.delete(PKM_CONFIG_SETTINGS_TYPE);",
  c!"}",
  c!"/// Add `pkm_config_settings` octets value to a packet.",
  c!"pub fn add_pkm_config_settings(packet: &mut Packet, value: &[u8]) {",
  c!"    packet.add(AVP::from_bytes(PKM_CONFIG_SETTINGS_TYPE, value));",
  c!"}",
  c!"/// Lookup a `pkm_config_settings` octets value from a packet.",
  c!"///",
  c!"/// It returns the first looked up value. If there is no associated value with `pkm_config_settings`, it returns `None`.",
  c!"pub fn lookup_pkm_config_settings(packet: &Packet) -> Option<Vec<u8>> {",
  c!"    packet",
  c!"        .lookup(PKM_CONFIG_SETTINGS_TYPE)",
  c!"        .map(|v| v.encode_bytes())",
  c!"}",
  c!"/// Lookup all of the `pkm_config_settings` octets value from a packet.",
  c!"pub fn lookup_all_pkm_config_settings(packet: &Packet) -> Vec<Vec<u8>> {",
  c!"    let mut vec = Vec::new();",
  c!"    for avp in packet.lookup_all(PKM_CONFIG_SETTINGS_TYPE) {",
  c!"        vec.push(avp.encode_bytes())",
  c!"    }",
  c!"    vec",
  c!"}",
  c!"",
  c!"pub const PKM_CRYPTOSUITE_LIST_TYPE: AVPType = 140;",
  c!"/// Delete all of `pkm_cryptosuite_list` values from a packet.",
  c!"pub fn delete_pkm_cryptosuite_list(packet: &mut Packet) {",
  c!"    packet.delete(PKM_CRYPTOSUITE_LIST_TYPE);",
  c!"}",
  c!"/// Add `pkm_cryptosuite_list` octets value to a packet.",
  c!"pub fn add_pkm_cryptosuite_list(packet: &mut Packet, value: &[u8]) {",
  c!"    packet.add(AVP::from_bytes(PKM_CRYPTOSUITE_LIST_TYPE, value));",
  c!"}",
  c!"/// Lookup a `pkm_cryptosuite_list` octets value from a packet."]

noncomputable def rfc5904Module_2 : List Str := [
  c!"///",
  c!"/// It returns the first looked up value. If there is no associated value with `pkm_cryptosuite_list`, it returns `None`.",
  c!"pub fn lookup_pkm_cryptosuite_list(packet: &Packet) -> Option<Vec<u8>> {",
  c!"    packet",
  c!"        .lookup(PKM_CRYPTOSUITE_LIST_TYPE)",
  c!"        .map(|v| v.encode_bytes())",
  c!"}",
  c!"/// Lookup all of the `pkm_cryptosuite_list` octets value from a packet.",
  c!"pub fn lookup_all_pkm_cryptosuite_list(packet: &Packet) -> Vec<Vec<u8>> {",
  c!"    let mut vec = Vec::new();",
  c!"    for avp in packet.lookup_all(PKM_CRYPTOSUITE_LIST_TYPE) {",
  c!"        vec.push(avp.encode_bytes())",
  c!"    }",
  c!"    vec",
  c!"}",
  c!"",
  c!"pub const PKM_SAID_TYPE: AVPType = 141;",
  c!"/// Delete all of `pkm_said` values from a packet.",
  c!"pub fn delete_pkm_said(packet: &mut Packet) {",
  c!"    packet.delete(PKM_SAID_TYPE);",
  c!"}",
  c!"/// Add `pkm_said` short integer value to a packet.",
  c!"pub fn add_pkm_said(packet: &mut Packet, value: u16) {",
  c!"    packet.add(AVP::from_u16(PKM_SAID_TYPE, value));",
  c!"}",
  c!"/// Lookup a `pkm_said` short integer value from a packet.",
  c!"///",
  c!"/// It returns the first looked up value. If there is no associated value with `pkm_said`, it returns `None`.",
  c!"pub fn lookup_pkm_said(packet: &Packet) -> Option<Result<u16, AVPError>> {",
  c!"    packet.lookup(PKM_SAID_TYPE).map(|v| v.encode_u16())",
  c!"}",
  c!"/// Lookup all of the `pkm_said` short integer value from a packet.",
  c!"pub fn lookup_all_pkm_said(packet: &Packet) -> Result<Vec<u16>, AVPError> {",
  c!"    let mut vec = Vec::new();",
  c!"    for avp in packet.lookup_all(PKM_SAID_TYPE) {",
  c!"        vec.push(avp.encode_u16()?)",
  c!"    }",
  c!"    Ok(vec)",
  c!"}",
  c!"",
  c!"pub const PKM_SA_DESCRIPTOR_TYPE: AVPType = 142;",
  c!"/// Delete all of `pkm_sa_descriptor` values from a packet.",
  c!"pub fn delete_pkm_sa_descriptor(packet: &mut Packet) {",
  c!"    packet.delete(PKM_SA_DESCRIPTOR_TYPE);",
  c!"}",
  c!"/// Add `pkm_sa_descriptor` octets value to a packet.",
  c!"pub fn add_pkm_sa_descriptor(packet: &mut Packet, value: &[u8]) {",
  c!"    packet.add(AVP::from_bytes(PKM_SA_DESCRIPTOR_TYPE, value));",
  c!"}",
  c!"/// Lookup a `pkm_sa_descriptor` octets value from a packet.",
  c!"///",
  c!"/// It returns the first looked up value. If there is no associated value with `pkm_sa_descriptor`, it returns `None`.",
  c!"pub fn lookup_pkm_sa_descriptor(packet: &Packet) -> Option<Vec<u8>> {",
  c!"    packet",
  c!"        .lookup(PKM_SA_DESCRIPTOR_TYPE)",
  c!"        .map(|v| v.encode_bytes())",
  c!"}",
  c!"/// Lookup all of the `pkm_sa_descriptor` octets value from a packet.",
  c!"pub fn lookup_all_pkm_sa_descriptor(packet: &Packet) -> Vec<Vec<u8>> {",
  c!"    let mut vec = Vec::new();"]

noncomputable def rfc5904Module_3 : List Str := [
  c!"    for avp in packet.lookup_all(PKM_SA_DESCRIPTOR_TYPE) {",
  c!"        vec.push(avp.encode_bytes())",
  c!"    }",
  c!"    vec",
  c!"}",
  c!"",
  c!"pub const PKM_AUTH_KEY_TYPE: AVPType = 143;",
  c!"/// Delete all of `pkm_auth_key` values from a packet.",
  c!"pub fn delete_pkm_auth_key(packet: &mut Packet) {",
  c!"    packet.delete(PKM_AUTH_KEY_TYPE);",
  c!"}",
  c!"/// Add `pkm_auth_key` octets value to a packet.",
  c!"pub fn add_pkm_auth_key(packet: &mut Packet, value: &[u8]) {",
  c!"    packet.add(AVP::from_bytes(PKM_AUTH_KEY_TYPE, value));",
  c!"}",
  c!"/// Lookup a `pkm_auth_key` octets value from a packet.",
  c!"///",
  c!"/// It returns the first looked up value. If there is no associated value with `pkm_auth_key`, it returns `None`.",
  c!"pub fn lookup_pkm_auth_key(packet: &Packet) -> Option<Vec<u8>> {",
  c!"    packet.lookup(PKM_AUTH_KEY_TYPE).map(|v| v.encode_bytes())",
  c!"}",
  c!"/// Lookup all of the `pkm_auth_key` octets value from a packet.",
  c!"pub fn lookup_all_pkm_auth_key(packet: &Packet) -> Vec<Vec<u8>> {",
  c!"    let mut vec = Vec::new();",
  c!"    for avp in packet.lookup_all(PKM_AUTH_KEY_TYPE) {",
  c!"        vec.push(avp.encode_bytes())",
  c!"    }",
  c!"    vec",
  c!"}"]

/-- The lines of radius/src/core/rfc5904.rs (1-209). -/
noncomputable def rfc5904Module : List Str :=
  rfc5904Module_0 ++ rfc5904Module_1 ++ rfc5904Module_2 ++ rfc5904Module_3

noncomputable def rfc6519Module_0 : List Str := [
  c!"// Code generated by machine generator; DO NOT EDIT.",
  c!"",
  c!"//! Utility for rfc6519 packet.",
  c!"//!",
  c!"//! This module handles the packet according to the following definition:",
  c!"//! ```text",
  c!"//! //! # -*- text -*-",
  c!"//! # Copyright (C) 2020 The FreeRADIUS Server project and contributors",
  c!"//! # This work is licensed under CC-BY version 4.0 https://creativecommons.org/licenses/by/4.0",
  c!"//! # Version $Id$",
  c!"//! #",
  c!"//! #    Attributes and values defined in RFC 6519.",
  c!"//! #    http://www.ietf.org/rfc/rfc6519.txt",
  c!"//! #",
  c!"//! #    $Id$",
  c!"//! #",
  c!"//!",
  c!"//! ATTRIBUTE    DS-Lite-Tunnel-Name            144    string",
  c!"//! ```",
  c!"",
  c!"use crate::core::avp::{AVPError, AVPType, AVP};",
  c!"use crate::core::packet::Packet;",
  c!"",
  c!"pub const DS_LITE_TUNNEL_NAME_TYPE: AVPType = 144;",
  c!"/// Delete all of `ds_lite_tunnel_name` values from a packet.",
  c!"pub fn delete_ds_lite_tunnel_name(packet: &mut Packet) {",
  c!"    packet.delete(DS_LITE_TUNNEL_NAME_TYPE);",
  c!"}",
  c!"/// Add `ds_lite_tunnel_name` string value to a packet.",
  c!"pub fn add_ds_lite_tunnel_name(packet: &mut Packet, value: &str) {",
  c!"    packet.add(AVP::from_string(DS_LITE_TUNNEL_NAME_TYPE, value));",
  c!"}",
  c!"/// Lookup a `ds_lite_tunnel_name` string value from a packet.",
  c!"///",
  c!"/// It returns the first looked up value. If there is no associated value with `ds_lite_tunnel_name`, it returns `None`.",
  c!"pub fn lookup_ds_lite_tunnel_name(packet: &Packet) -> Option<Result<String, AVPError>> {",
  c!"    packet",
  c!"        .lookup(DS_LITE_TUNNEL_NAME_TYPE)",
  c!"        .map(|v| v.encode_string())",
  c!"}",
  c!"/// Lookup all of the `ds_lite_tunnel_name` string value from a packet.",
  c!"pub fn lookup_all_ds_lite_tunnel_name(packet: &Packet) -> Result<Vec<String>, AVPError> {",
  c!"    let mut vec = Vec::new();",
  c!"    for avp in packet.lookup_all(DS_LITE_TUNNEL_NAME_TYPE) {",
  c!"        vec.push(avp.encode_string()?)",
  c!"    }",
  c!"    Ok(vec)",
  c!"}"]

/-- The lines of radius/src/core/rfc6519.rs (1-48). -/
noncomputable def rfc6519Module : List Str :=
  rfc6519Module_0

noncomputable def rfc6572Module_0 : List Str := [
  c!"// Code generated by machine generator; DO NOT EDIT.",
  c!"",
  c!"//! Utility for rfc6572 packet.",
  c!"//!",
  c!"//! This module handles the packet according to the following definition:",
  c!"//! ```text",
  c!"//! //! # -*- text -*-",
  c!"//! # Copyright (C) 2020 The FreeRADIUS Server project and contributors",
  c!"//! # This work is licensed under CC-BY version 4.0 https://creativecommons.org/licenses/by/4.0",
  c!"//! # Version $Id$",
  c!"//! #",
  c!"//! #    Attributes and values defined in RFC 6572.",
  c!"//! #    http://www.ietf.org/rfc/rfc6572.txt",
  c!"//! #",
  c!"//! #    $Id$",
  c!"//! #",
  c!"//!",
  c!"//! ATTRIBUTE    Mobile-Node-Identifier            145    octets",
  c!"//! ATTRIBUTE    Service-Selection            146    string",
  c!"//! ATTRIBUTE    PMIP6-Home-LMA-IPV6-Address        147    ipv6addr",
  c!"//! ATTRIBUTE    PMIP6-Visited-LMA-IPV6-Address        148    ipv6addr",
  c!"//! ATTRIBUTE    PMIP6-Home-LMA-IPV4-Address        149    ipaddr",
  c!"//! ATTRIBUTE    PMIP6-Visited-LMA-IPV4-Address        150    ipaddr",
  c!"//! ATTRIBUTE    PMIP6-Home-HN-Prefix            151    ipv6prefix",
  c!"//! ATTRIBUTE    PMIP6-Visited-HN-Prefix            152    ipv6prefix",
  c!"//! ATTRIBUTE    PMIP6-Home-Interface-ID            153    ifid",
  c!"//! ATTRIBUTE    PMIP6-Visited-Interface-ID        154    ifid",
  c!"//! ATTRIBUTE    PMIP6-Home-IPV4-HoA            155    ipv4prefix",
  c!"//! ATTRIBUTE    PMIP6-Visited-IPV4-HoA            156    ipv4prefix",
  c!"//! ATTRIBUTE    PMIP6-Home-DHCP4-Server-Address        157    ipaddr",
  c!"//! ATTRIBUTE    PMIP6-Visited-DHCP4-Server-Address    158    ipaddr",
  c!"//! ATTRIBUTE    PMIP6-Home-DHCP6-Server-Address        159    ipv6addr",
  c!"//! ATTRIBUTE    PMIP6-Visited-DHCP6-Server-Address    160    ipv6addr",
  c!"//! ATTRIBUTE    PMIP6-Home-IPV4-Gateway            161    ipaddr",
  c!"//! ATTRIBUTE    PMIP6-Visited-IPV4-Gateway        162    ipaddr",
  c!"//! ```",
  c!"",
  c!"use std::net::{Ipv4Addr, Ipv6Addr};",
  c!"",
  c!"use crate::core::avp::{AVPError, AVPType, AVP};",
  c!"use crate::core::packet::Packet;",
  c!"",
  c!"pub const MOBILE_NODE_IDENTIFIER_TYPE: AVPType = 145;",
  c!"/// Delete all of `mobile_node_identifier` values from a packet.",
  c!"pub fn delete_mobile_node_identifier(packet: &mut Packet) {",
  c!"    packet.delete(MOBILE_NODE_IDENTIFIER_TYPE);",
  c!"}",
  c!"/// Add `mobile_node_identifier` octets value to a packet.",
  c!"pub fn add_mobile_node_identifier(packet: &mut Packet, value: &[u8]) {",
  c!"    packet.add(AVP::from_bytes(MOBILE_NODE_IDENTIFIER_TYPE, value));",
  c!"}",
  c!"/// Lookup a `mobile_node_identifier` octets value from a packet.",
  c!"///",
  c!"/// It returns the first looked up value. If there is no associated value with `mobile_node_identifier`, it returns `None`.",
  c!"pub fn lookup_mobile_node_identifier(packet: &Packet) -> Option<Vec<u8>> {",
  c!"    packet",
  c!"        .lookup(MOBILE_NODE_IDENTIFIER_TYPE)",
  c!"        .map(|v| v.encode_bytes())",
  c!"}",
  c!"/// Lookup all of the `mobile_node_identifier` octets value from a packet."]

noncomputable def rfc6572Module_1 : List Str := [
  c!"pub fn lookup_all_mobile_node_identifier(packet: &Packet) -> Vec<Vec<u8>> {",
  c!"    let mut vec = Vec::new();",
  c!"    for avp in packet.lookup_all(MOBILE_NODE_IDENTIFIER_TYPE) {",
  c!"        vec.push(avp.encode_bytes())",
  c!"    }",
  c!"    vec",
  c!"}",
  c!"",
  c!"pub const SERVICE_SELECTION_TYPE: AVPType = 146;",
  c!"/// Delete all of `service_selection` values from a packet.",
  c!"pub fn delete_service_selection(packet: &mut Packet) {",
  c!"    packet.delete(SERVICE_SELECTION_TYPE);",
  c!"}",
  c!"/// Add `service_selection` string value to a packet.",
  c!"pub fn add_service_selection(packet: &mut Packet, value: &str) {",
  c!"    packet.add(AVP::from_string(SERVICE_SELECTION_TYPE, value));",
  c!"}",
  c!"/// Lookup a `service_selection` string value from a packet.",
  c!"///",
  c!"/// It returns the first looked up value. If there is no associated value with `service_selection`, it returns `None`.",
  c!"pub fn lookup_service_selection(packet: &Packet) -> Option<Result<String, AVPError>> {",
  c!"    packet",
  c!"        .lookup(SERVICE_SELECTION_TYPE)",
  c!"        .map(|v| v.encode_string())",
  c!"}",
  c!"/// Lookup all of the `service_selection` string value from a packet.",
  c!"pub fn lookup_all_service_selection(packet: &Packet) -> Result<Vec<String>, AVPError> {",
  c!"    let mut vec = Vec::new();",
  c!"    for avp in packet.lookup_all(SERVICE_SELECTION_TYPE) {",
  c!"        vec.push(avp.encode_string()?)",
  c!"    }",
  c!"    Ok(vec)",
  c!"}",
  c!"",
  c!"pub const PMIP6_HOME_LMA_IPV6_ADDRESS_TYPE: AVPType = 147;",
  c!"/// Delete all of `pmip6_home_lma_ipv6_address` values from a packet.",
  c!"pub fn delete_pmip6_home_lma_ipv6_address(packet: &mut Packet) {",
  c!"    packet.delete(PMIP6_HOME_LMA_IPV6_ADDRESS_TYPE);",
  c!"}",
  c!"/// Add `pmip6_home_lma_ipv6_address` ipv6addr value to a packet.",
  c!"pub fn add_pmip6_home_lma_ipv6_address(packet: &mut Packet, value: &Ipv6Addr) {",
  c!"    packet.add(AVP::from_ipv6(PMIP6_HOME_LMA_IPV6_ADDRESS_TYPE, value));",
  c!"}",
  c!"/// Lookup a `pmip6_home_lma_ipv6_address` ipv6addr value from a packet.",
  c!"///",
  c!"/// It returns the first looked up value. If there is no associated value with `pmip6_home_lma_ipv6_address`, it returns `None`.",
  c!"pub fn lookup_pmip6_home_lma_ipv6_address(packet: &Packet) -> Option<Result<Ipv6Addr, AVPError>> {",
  c!"    packet",
  c!"        .lookup(PMIP6_HOME_LMA_IPV6_ADDRESS_TYPE)",
  c!"        .map(|v| v.encode_ipv6())",
  c!"}",
  c!"/// Lookup all of the `pmip6_home_lma_ipv6_address` ipv6addr value from a packet.",
  c!"pub fn lookup_all_pmip6_home_lma_ipv6_address(packet: &Packet) -> Result<Vec<Ipv6Addr>, AVPError> {",
  c!"    let mut vec = Vec::new();",
  c!"    for avp in packet.lookup_all(PMIP6_HOME_LMA_IPV6_ADDRESS_TYPE) {",
  c!"        vec.push(avp.encode_ipv6()?)",
  c!"    }",
  c!"    Ok(vec)",
  c!"}",
  c!""]

noncomputable def rfc6572Module_2 : List Str := [
  c!"pub const PMIP6_VISITED_LMA_IPV6_ADDRESS_TYPE: AVPType = 148;",
  c!"/// Delete all of `pmip6_visited_lma_ipv6_address` values from a packet.",
  c!"pub fn delete_pmip6_visited_lma_ipv6_address(packet: &mut Packet) {",
  c!"    packet.delete(PMIP6_VISITED_LMA_IPV6_ADDRESS_TYPE);",
  c!"}",
  c!"/// Add `pmip6_visited_lma_ipv6_address` ipv6addr value to a packet.",
  c!"pub fn add_pmip6_visited_lma_ipv6_address(packet: &mut Packet, value: &Ipv6Addr) {",
  c!"    packet.add(AVP::from_ipv6(PMIP6_VISITED_LMA_IPV6_ADDRESS_TYPE, value));",
  c!"}",
  c!"/// Lookup a `pmip6_visited_lma_ipv6_address` ipv6addr value from a packet.",
  c!"///",
  c!"/// It returns the first looked up value. If there is no associated value with `pmip6_visited_lma_ipv6_address`, it returns `None`.",
  c!"pub fn lookup_pmip6_visited_lma_ipv6_address(",
  c!"    packet: &Packet,",
  c!") -> Option<Result<Ipv6Addr, AVPError>> {",
  c!"    packet",
  c!"        .lookup(PMIP6_VISITED_LMA_IPV6_ADDRESS_TYPE)",
  c!"        .map(|v| v.encode_ipv6())",
  c!"}",
  c!"/// Lookup all of the `pmip6_visited_lma_ipv6_address` ipv6addr value from a packet.",
  c!"pub fn lookup_all_pmip6_visited_lma_ipv6_address(",
  c!"    packet: &Packet,",
  c!") -> Result<Vec<Ipv6Addr>, AVPError> {",
  c!"    let mut vec = Vec::new();",
  c!"    for avp in packet.lookup_all(PMIP6_VISITED_LMA_IPV6_ADDRESS_TYPE) {",
  c!"        vec.push(avp.encode_ipv6()?)",
  c!"    }",
  c!"    Ok(vec)",
  c!"}",
  c!"",
  c!"pub const PMIP6_HOME_LMA_IPV4_ADDRESS_TYPE: AVPType = 149;",
  c!"/// Delete all of `pmip6_home_lma_ipv4_address` values from a packet.",
  c!"pub fn delete_pmip6_home_lma_ipv4_address(packet: &mut Packet) {",
  c!"    packet.delete(PMIP6_HOME_LMA_IPV4_ADDRESS_TYPE);",
  c!"}",
  c!"/// Add `pmip6_home_lma_ipv4_address` ipaddr value to a packet.",
  c!"pub fn add_pmip6_home_lma_ipv4_address(packet: &mut Packet, value: &Ipv4Addr) {",
  c!"    packet.add(AVP::from_ipv4(PMIP6_HOME_LMA_IPV4_ADDRESS_TYPE, value));",
  c!"}",
  c!"/// Lookup a `pmip6_home_lma_ipv4_address` ipaddr value from a packet.",
  c!"///",
  c!"/// It returns the first looked up value. If there is no associated value with `pmip6_home_lma_ipv4_address`, it returns `None`.",
  c!"pub fn lookup_pmip6_home_lma_ipv4_address(packet: &Packet) -> Option<Result<Ipv4Addr, AVPError>> {",
  c!"    packet",
  c!"        .lookup(PMIP6_HOME_LMA_IPV4_ADDRESS_TYPE)",
  c!"        .map(|v| v.encode_ipv4())",
  c!"}",
  c!"/// Lookup all of the `pmip6_home_lma_ipv4_address` ipaddr value from a packet.",
  c!"pub fn lookup_all_pmip6_home_lma_ipv4_address(packet: &Packet) -> Result<Vec<Ipv4Addr>, AVPError> {",
  c!"    let mut vec = Vec::new();",
  c!"    for avp in packet.lookup_all(PMIP6_HOME_LMA_IPV4_ADDRESS_TYPE) {",
  c!"        vec.push(avp.encode_ipv4()?)",
  c!"    }",
  c!"    Ok(vec)",
  c!"}",
  c!"",
  c!"pub const PMIP6_VISITED_LMA_IPV4_ADDRESS_TYPE: AVPType = 150;",
  c!"/// Delete all of `pmip6_visited_lma_ipv4_address` values from a packet.",
  c!"pub fn delete_pmip6_visited_lma_ipv4_address(packet: &mut Packet) {",
  c!"    packet.delete(PMIP6_VISITED_LMA_IPV4_ADDRESS_TYPE);"]

noncomputable def rfc6572Module_3 : List Str := [
  c!"}",
  c!"/// Add `pmip6_visited_lma_ipv4_address` ipaddr value to a packet.",
  c!"pub fn add_pmip6_visited_lma_ipv4_address(packet: &mut Packet, value: &Ipv4Addr) {",
  c!"    packet.add(AVP::from_ipv4(PMIP6_VISITED_LMA_IPV4_ADDRESS_TYPE, value));",
  c!"}",
  c!"/// Lookup a `pmip6_visited_lma_ipv4_address` ipaddr value from a packet.",
  c!"///",
  c!"/// It returns the first looked up value. If there is no associated value with `pmip6_visited_lma_ipv4_address`, it returns `None`.",
  c!"pub fn lookup_pmip6_visited_lma_ipv4_address(",
  c!"    packet: &Packet,",
  c!") -> Option<Result<Ipv4Addr, AVPError>> {",
  c!"    packet",
  c!"        .lookup(PMIP6_VISITED_LMA_IPV4_ADDRESS_TYPE)",
  c!"        .map(|v| v.encode_ipv4())",
  c!"}",
  c!"/// Lookup all of the `pmip6_visited_lma_ipv4_address` ipaddr value from a packet.",
  c!"pub fn lookup_all_pmip6_visited_lma_ipv4_address(",
  c!"    packet: &Packet,",
  c!") -> Result<Vec<Ipv4Addr>, AVPError> {",
  c!"    let mut vec = Vec::new();",
  c!"    for avp in packet.lookup_all(PMIP6_VISITED_LMA_IPV4_ADDRESS_TYPE) {",
  c!"        vec.push(avp.encode_ipv4()?)",
  c!"    }",
  c!"    Ok(vec)",
  c!"}",
  c!"",
  c!"pub const PMIP6_HOME_HN_PREFIX_TYPE: AVPType = 151;",
  c!"/// Delete all of `pmip6_home_hn_prefix` values from a packet.",
  c!"pub fn delete_pmip6_home_hn_prefix(packet: &mut Packet) {",
  c!"    packet.delete(PMIP6_HOME_HN_PREFIX_TYPE);",
  c!"}",
  c!"/// Add `pmip6_home_hn_prefix` ipv6 prefix value to a packet.",
  c!"pub fn add_pmip6_home_hn_prefix(packet: &mut Packet, value: &[u8]) -> Result<(), AVPError> {",
  c!"    packet.add(AVP::from_ipv6_prefix(PMIP6_HOME_HN_PREFIX_TYPE, value)?);",
  c!"    Ok(())",
  c!"}",
  c!"/// Lookup a `pmip6_home_hn_prefix` ipv6 prefix value from a packet.",
  c!"///",
  c!"/// It returns the first looked up value. If there is no associated value with `pmip6_home_hn_prefix`, it returns `None`.",
  c!"pub fn lookup_pmip6_home_hn_prefix(packet: &Packet) -> Option<Result<Vec<u8>, AVPError>> {",
  c!"    packet",
  c!"        .lookup(PMIP6_HOME_HN_PREFIX_TYPE)",
  c!"        .map(|v| v.encode_ipv6_prefix())",
  c!"}",
  c!"/// Lookup all of the `pmip6_home_hn_prefix` ipv6 prefix value from a packet.",
  c!"pub fn lookup_all_pmip6_home_hn_prefix(packet: &Packet) -> Result<Vec<Vec<u8>>, AVPError> {",
  c!"    let mut vec = Vec::new();",
  c!"    for avp in packet.lookup_all(PMIP6_HOME_HN_PREFIX_TYPE) {",
  c!"        vec.push(avp.encode_ipv6_prefix()?)",
  c!"    }",
  c!"    Ok(vec)",
  c!"}",
  c!"",
  c!"pub const PMIP6_VISITED_HN_PREFIX_TYPE: AVPType = 152;",
  c!"/// Delete all of `pmip6_visited_hn_prefix` values from a packet.",
  c!"pub fn delete_pmip6_visited_hn_prefix(packet: &mut Packet) {",
  c!"    packet.delete(PMIP6_VISITED_HN_PREFIX_TYPE);",
  c!"}",
  c!"/// Add `pmip6_visited_hn_prefix` ipv6 prefix value to a packet.",
  c!"pub fn add_pmip6_visited_hn_prefix(packet: &mut Packet, value: &[u8]) -> Result<(), AVPError> {"]

noncomputable def rfc6572Module_4 : List Str := [
  c!"    packet.add(AVP::from_ipv6_prefix(PMIP6_VISITED_HN_PREFIX_TYPE, value)?);",
  c!"    Ok(())",
  c!"}",
  c!"/// Lookup a `pmip6_visited_hn_prefix` ipv6 prefix value from a packet.",
  c!"///",
  c!"/// It returns the first looked up value. If there is no associated value with `pmip6_visited_hn_prefix`, it returns `None`.",
  c!"pub fn lookup_pmip6_visited_hn_prefix(packet: &Packet) -> Option<Result<Vec<u8>, AVPError>> {",
  c!"    packet",
  c!"        .lookup(PMIP6_VISITED_HN_PREFIX_TYPE)",
  c!"        .map(|v| v.encode_ipv6_prefix())",
  c!"}",
  c!"/// Lookup all of the `pmip6_visited_hn_prefix` ipv6 prefix value from a packet.",
  c!"pub fn lookup_all_pmip6_visited_hn_prefix(packet: &Packet) -> Result<Vec<Vec<u8>>, AVPError> {",
  c!"    let mut vec = Vec::new();",
  c!"    for avp in packet.lookup_all(PMIP6_VISITED_HN_PREFIX_TYPE) {",
  c!"        vec.push(avp.encode_ipv6_prefix()?)",
  c!"    }",
  c!"    Ok(vec)",
  c!"}",
  c!"",
  c!"pub const PMIP6_HOME_INTERFACE_ID_TYPE: AVPType = 153;",
  c!"/// Delete all of `pmip6_home_interface_id` values from a packet.",
  c!"pub fn delete_pmip6_home_interface_id(packet: &mut Packet) {",
  c!"    packet.delete(PMIP6_HOME_INTERFACE_ID_TYPE);",
  c!"}",
  c!"/// Add `pmip6_home_interface_id` fixed-length octets value to a packet.",
  c!"pub fn add_pmip6_home_interface_id(packet: &mut Packet, value: &[u8]) -> Result<(), AVPError> {",
  c!"    if value.len() != 8 {",
  c!"        return Err(AVPError::InvalidAttributeLengthError(",
  c! r#"            "8 bytes".to_owned(),"#,
  c!"            value.len(),",
  c!"        ));",
  c!"    }",
  c!"    packet.add(AVP::from_bytes(PMIP6_HOME_INTERFACE_ID_TYPE, value));",
  c!"    Ok(())",
  c!"}",
  c!"/// Lookup a `pmip6_home_interface_id` fixed-length octets value from a packet.",
  c!"///",
  c!"/// It returns the first looked up value. If there is no associated value with `pmip6_home_interface_id`, it returns `None`.",
  c!"pub fn lookup_pmip6_home_interface_id(packet: &Packet) -> Option<Vec<u8>> {",
  c!"    packet",
  c!"        .lookup(PMIP6_HOME_INTERFACE_ID_TYPE)",
  c!"        .map(|v| v.encode_bytes())",
  c!"}",
  c!"/// Lookup all of the `pmip6_home_interface_id` fixed-length octets value from a packet.",
  c!"pub fn lookup_all_pmip6_home_interface_id(packet: &Packet) -> Vec<Vec<u8>> {",
  c!"    let mut vec = Vec::new();",
  c!"    for avp in packet.lookup_all(PMIP6_HOME_INTERFACE_ID_TYPE) {",
  c!"        vec.push(avp.encode_bytes())",
  c!"    }",
  c!"    vec",
  c!"}",
  c!"",
  c!"pub const PMIP6_VISITED_INTERFACE_ID_TYPE: AVPType = 154;",
  c!"/// Delete all of `pmip6_visited_interface_id` values from a packet.",
  c!"pub fn delete_pmip6_visited_interface_id(packet: &mut Packet) {",
  c!"    packet.delete(PMIP6_VISITED_INTERFACE_ID_TYPE);",
  c!"}",
  c!"/// Add `pmip6_visited_interface_id` fixed-length octets value to a packet.",
  c!"pub fn add_pmip6_visited_interface_id(packet: &mut Packet, value: &[u8]) -> Result<(), AVPError> {"]

noncomputable def rfc6572Module_5 : List Str := [
  c!"    if value.len() != 8 {",
  c!"        return Err(AVPError::InvalidAttributeLengthError(",
  c! r#"            "8 bytes".to_owned(),"#,
  c!"            value.len(),",
  c!"        ));",
  c!"    }",
  c!"    packet.add(AVP::from_bytes(PMIP6_VISITED_INTERFACE_ID_TYPE, value));",
  c!"    Ok(())",
  c!"}",
  c!"/// Lookup a `pmip6_visited_interface_id` fixed-length octets value from a packet.",
  c!"///",
  c!"/// It returns the first looked up value. If there is no associated value with `pmip6_visited_interface_id`, it returns `None`.",
  c!"pub fn lookup_pmip6_visited_interface_id(packet: &Packet) -> Option<Vec<u8>> {",
  c!"    packet",
  c!"        .lookup(PMIP6_VISITED_INTERFACE_ID_TYPE)",
  c!"        .map(|v| v.encode_bytes())",
  c!"}",
  c!"/// Lookup all of the `pmip6_visited_interface_id` fixed-length octets value from a packet.",
  c!"pub fn lookup_all_pmip6_visited_interface_id(packet: &Packet) -> Vec<Vec<u8>> {",
  c!"    let mut vec = Vec::new();",
  c!"    for avp in packet.lookup_all(PMIP6_VISITED_INTERFACE_ID_TYPE) {",
  c!"        vec.push(avp.encode_bytes())",
  c!"    }",
  c!"    vec",
  c!"}",
  c!"",
  c!"pub const PMIP6_HOME_IPV4_HO_A_TYPE: AVPType = 155;",
  c!"/// Delete all of `pmip6_home_ipv4_ho_a` values from a packet.",
  c!"pub fn delete_pmip6_home_ipv4_ho_a(packet: &mut Packet) {",
  c!"    packet.delete(PMIP6_HOME_IPV4_HO_A_TYPE);",
  c!"}",
  c!"/// Add `pmip6_home_ipv4_ho_a` ipv4 prefix value to a packet.",
  c!"pub fn add_pmip6_home_ipv4_ho_a(packet: &mut Packet, value: &[u8]) -> Result<(), AVPError> {",
  c!"    packet.add(AVP::from_ipv4_prefix(PMIP6_HOME_IPV4_HO_A_TYPE, value)?);",
  c!"    Ok(())",
  c!"}",
  c!"/// Lookup a `pmip6_home_ipv4_ho_a` ipv4 prefix value from a packet.",
  c!"///",
  c!"/// It returns the first looked up value. If there is no associated value with `pmip6_home_ipv4_ho_a`, it returns `None`.",
  c!"pub fn lookup_pmip6_home_ipv4_ho_a(packet: &Packet) -> Option<Result<Vec<u8>, AVPError>> {",
  c!"    packet",
  c!"        .lookup(PMIP6_HOME_IPV4_HO_A_TYPE)",
  c!"        .map(|v| v.encode_ipv4_prefix())",
  c!"}",
  c!"/// Lookup all of the `pmip6_home_ipv4_ho_a` ipv4 prefix value from a packet.",
  c!"pub fn lookup_all_pmip6_home_ipv4_ho_a(packet: &Packet) -> Result<Vec<Vec<u8>>, AVPError> {",
  c!"    let mut vec = Vec::new();",
  c!"    for avp in packet.lookup_all(PMIP6_HOME_IPV4_HO_A_TYPE) {",
  c!"        vec.push(avp.encode_ipv4_prefix()?)",
  c!"    }",
  c!"    Ok(vec)",
  c!"}",
  c!"",
  c!"pub const PMIP6_VISITED_IPV4_HO_A_TYPE: AVPType = 156;",
  c!"/// Delete all of `pmip6_visited_ipv4_ho_a` values from a packet.",
  c!"pub fn delete_pmip6_visited_ipv4_ho_a(packet: &mut Packet) {",
  c!"    packet.delete(PMIP6_VISITED_IPV4_HO_A_TYPE);",
  c!"}",
  c!"/// Add `pmip6_visited_ipv4_ho_a` ipv4 prefix value to a packet.",
  c!"pub fn add_pmip6_visited_ipv4_ho_a(packet: &mut Packet, value: &[u8]) -> Result<(), AVPError> {"]

noncomputable def rfc6572Module_6 : List Str := [
  c!"    packet.add(AVP::from_ipv4_prefix(PMIP6_VISITED_IPV4_HO_A_TYPE, value)?);",
  c!"    Ok(())",
  c!"}",
  c!"/// Lookup a `pmip6_visited_ipv4_ho_a` ipv4 prefix value from a packet.",
  c!"///",
  c!"/// It returns the first looked up value. If there is no associated value with `pmip6_visited_ipv4_ho_a`, it returns `None`.",
  c!"pub fn lookup_pmip6_visited_ipv4_ho_a(packet: &Packet) -> Option<Result<Vec<u8>, AVPError>> {",
  c!"    packet",
  c!"        .lookup(PMIP6_VISITED_IPV4_HO_A_TYPE)",
  c!"        .map(|v| v.encode_ipv4_prefix())",
  c!"}",
  c!"/// Lookup all of the `pmip6_visited_ipv4_ho_a` ipv4 prefix value from a packet.",
  c!"pub fn lookup_all_pmip6_visited_ipv4_ho_a(packet: &Packet) -> Result<Vec<Vec<u8>>, AVPError> {",
  c!"    let mut vec = Vec::new();",
  c!"    for avp in packet.lookup_all(PMIP6_VISITED_IPV4_HO_A_TYPE) {",
  c!"        vec.push(avp.encode_ipv4_prefix()?)",
  c!"    }",
  c!"    Ok(vec)",
  c!"}",
  c!"",
  c!"pub const PMIP6_HOME_DHCP4_SERVER_ADDRESS_TYPE: AVPType = 157;",
  c!"/// Delete all of `pmip6_home_dhcp4_server_address` values from a packet.",
  c!"pub fn delete_pmip6_home_dhcp4_server_address(packet: &mut Packet) {",
  c!"    packet.delete(PMIP6_HOME_DHCP4_SERVER_ADDRESS_TYPE);",
  c!"}",
  c!"/// Add `pmip6_home_dhcp4_server_address` ipaddr value to a packet.",
  c!"pub fn add_pmip6_home_dhcp4_server_address(packet: &mut Packet, value: &Ipv4Addr) {",
  c!"    packet.add(AVP::from_ipv4(PMIP6_HOME_DHCP4_SERVER_ADDRESS_TYPE, value));",
  c!"}",
  c!"/// Lookup a `pmip6_home_dhcp4_server_address` ipaddr value from a packet.",
  c!"///",
  c!"/// It returns the first looked up value. If there is no associated value with `pmip6_home_dhcp4_server_address`, it returns `None`.",
  c!"pub fn lookup_pmip6_home_dhcp4_server_address(",
  c!"    packet: &Packet,",
  c!") -> Option<Result<Ipv4Addr, AVPError>> {",
  c!"    packet",
  c!"        .lookup(PMIP6_HOME_DHCP4_SERVER_ADDRESS_TYPE)",
  c!"        .map(|v| v.encode_ipv4())",
  c!"}",
  c!"/// Lookup all of the `pmip6_home_dhcp4_server_address` ipaddr value from a packet.",
  c!"pub fn lookup_all_pmip6_home_dhcp4_server_address(",
  c!"    packet: &Packet,",
  c!") -> Result<Vec<Ipv4Addr>, AVPError> {",
  c!"    let mut vec = Vec::new();",
  c!"    for avp in packet.lookup_all(PMIP6_HOME_DHCP4_SERVER_ADDRESS_TYPE) {",
  c!"        vec.push(avp.encode_ipv4()?)",
  c!"    }",
  c!"    Ok(vec)",
  c!"}",
  c!"",
  c!"pub const PMIP6_VISITED_DHCP4_SERVER_ADDRESS_TYPE: AVPType = 158;",
  c!"/// Delete all of `pmip6_visited_dhcp4_server_address` values from a packet.",
  c!"pub fn delete_pmip6_visited_dhcp4_server_address(packet: &mut Packet) {",
  c!"    packet.delete(PMIP6_VISITED_DHCP4_SERVER_ADDRESS_TYPE);",
  c!"}",
  c!"/// Add `pmip6_visited_dhcp4_server_address` ipaddr value to a packet.",
  c!"pub fn add_pmip6_visited_dhcp4_server_address(packet: &mut Packet, value: &Ipv4Addr) {",
  c!"    packet.add(AVP::from_ipv4(",
  c!"        PMIP6_VISITED_DHCP4_SERVER_ADDRESS_TYPE,",
  c!"        value,"]

noncomputable def rfc6572Module_7 : List Str := [
  c!"    ));",
  c!"}",
  c!"/// Lookup a `pmip6_visited_dhcp4_server_address` ipaddr value from a packet.",
  c!"///",
  c!"/// It returns the first looked up value. If there is no associated value with `pmip6_visited_dhcp4_server_address`, it returns `None`.",
  c!"pub fn lookup_pmip6_visited_dhcp4_server_address(",
  c!"    packet: &Packet,",
  c!") -> Option<Result<Ipv4Addr, AVPError>> {",
  c!"    packet",
  c!"        .lookup(PMIP6_VISITED_DHCP4_SERVER_ADDRESS_TYPE)",
  c!"        .map(|v| v.encode_ipv4())",
  c!"}",
  c!"/// Lookup all of the `pmip6_visited_dhcp4_server_address` ipaddr value from a packet.",
  c!"pub fn lookup_all_pmip6_visited_dhcp4_server_address(",
  c!"    packet: &Packet,",
  c!") -> Result<Vec<Ipv4Addr>, AVPError> {",
  c!"    let mut vec = Vec::new();",
  c!"    for avp in packet.lookup_all(PMIP6_VISITED_DHCP4_SERVER_ADDRESS_TYPE) {",
  c!"        vec.push(avp.encode_ipv4()?)",
  c!"    }",
  c!"    Ok(vec)",
  c!"}",
  c!"",
  c!"pub const PMIP6_HOME_DHCP6_SERVER_ADDRESS_TYPE: AVPType = 159;",
  c!"/// Delete all of `pmip6_home_dhcp6_server_address` values from a packet.",
  c!"pub fn delete_pmip6_home_dhcp6_server_address(packet: &mut Packet) {",
  c!"    packet.delete(PMIP6_HOME_DHCP6_SERVER_ADDRESS_TYPE);",
  c!"}",
  c!"/// Add `pmip6_home_dhcp6_server_address` ipv6addr value to a packet.",
  c!"pub fn add_pmip6_home_dhcp6_server_address(packet: &mut Packet, value: &Ipv6Addr) {",
  c!"    packet.add(AVP::from_ipv6(PMIP6_HOME_DHCP6_SERVER_ADDRESS_TYPE, value));",
  c!"}",
  c!"/// Lookup a `pmip6_home_dhcp6_server_address` ipv6addr value from a packet.",
  c!"///",
  c!"/// It returns the first looked up value. If there is no associated value with `pmip6_home_dhcp6_server_address`, it returns `None`.",
  c!"pub fn lookup_pmip6_home_dhcp6_server_address(",
  c!"    packet: &Packet,",
  c!") -> Option<Result<Ipv6Addr, AVPError>> {",
  c!"    packet",
  c!"        .lookup(PMIP6_HOME_DHCP6_SERVER_ADDRESS_TYPE)",
  c!"        .map(|v| v.encode_ipv6())",
  c!"}",
  c!"/// Lookup all of the `pmip6_home_dhcp6_server_address` ipv6addr value from a packet.",
  c!"pub fn lookup_all_pmip6_home_dhcp6_server_address(",
  c!"    packet: &Packet,",
  c!") -> Result<Vec<Ipv6Addr>, AVPError> {",
  c!"    let mut vec = Vec::new();",
  c!"    for avp in packet.lookup_all(PMIP6_HOME_DHCP6_SERVER_ADDRESS_TYPE) {",
  c!"        vec.push(avp.encode_ipv6()?)",
  c!"    }",
  c!"    Ok(vec)",
  c!"}",
  c!"",
  c!"pub const PMIP6_VISITED_DHCP6_SERVER_ADDRESS_TYPE: AVPType = 160;",
  c!"/// Delete all of `pmip6_visited_dhcp6_server_address` values from a packet.",
  c!"pub fn delete_pmip6_visited_dhcp6_server_address(packet: &mut Packet) {",
  c!"    packet.delete(PMIP6_VISITED_DHCP6_SERVER_ADDRESS_TYPE);",
  c!"}",
  c!"/// Add `pmip6_visited_dhcp6_server_address` ipv6addr value to a packet.",
  c!"pub fn add_pmip6_visited_dhcp6_server_address(packet: &mut Packet, value: &Ipv6Addr) {"]

noncomputable def rfc6572Module_8 : List Str := [
  c!"    packet.add(AVP::from_ipv6(",
  c!"        PMIP6_VISITED_DHCP6_SERVER_ADDRESS_TYPE,",
  c!"        value,",
  c!"    ));",
  c!"}",
  c!"/// Lookup a `pmip6_visited_dhcp6_server_address` ipv6addr value from a packet.",
  c!"///",
  c!"/// It returns the first looked up value. If there is no associated value with `pmip6_visited_dhcp6_server_address`, it returns `None`.",
  c!"pub fn lookup_pmip6_visited_dhcp6_server_address(",
  c!"    packet: &Packet,",
  c!") -> Option<Result<Ipv6Addr, AVPError>> {",
  c!"    packet",
  c!"        .lookup(PMIP6_VISITED_DHCP6_SERVER_ADDRESS_TYPE)",
  c!"        .map(|v| v.encode_ipv6())",
  c!"}",
  c!"/// Lookup all of the `pmip6_visited_dhcp6_server_address` ipv6addr value from a packet.",
  c!"pub fn lookup_all_pmip6_visited_dhcp6_server_address(",
  c!"    packet: &Packet,",
  c!") -> Result<Vec<Ipv6Addr>, AVPError> {",
  c!"    let mut vec = Vec::new();",
  c!"    for avp in packet.lookup_all(PMIP6_VISITED_DHCP6_SERVER_ADDRESS_TYPE) {",
  c!"        vec.push(avp.encode_ipv6()?)",
  c!"    }",
  c!"    Ok(vec)",
  c!"}",
  c!"",
  c!"pub const PMIP6_HOME_IPV4_GATEWAY_TYPE: AVPType = 161;",
  c!"/// Delete all of `pmip6_home_ipv4_gateway` values from a packet.",
  c!"pub fn delete_pmip6_home_ipv4_gateway(packet: &mut Packet) {",
  c!"    packet.delete(PMIP6_HOME_IPV4_GATEWAY_TYPE);",
  c!"}",
  c!"/// Add `pmip6_home_ipv4_gateway` ipaddr value to a packet.",
  c!"pub fn add_pmip6_home_ipv4_gateway(packet: &mut Packet, value: &Ipv4Addr) {",
  c!"    packet.add(AVP::from_ipv4(PMIP6_HOME_IPV4_GATEWAY_TYPE, value));",
  c!"}",
  c!"/// Lookup a `pmip6_home_ipv4_gateway` ipaddr value from a packet.",
  c!"///",
  c!"/// It returns the first looked up value. If there is no associated value with `pmip6_home_ipv4_gateway`, it returns `None`.",
  c!"pub fn lookup_pmip6_home_ipv4_gateway(packet: &Packet) -> Option<Result<Ipv4Addr, AVPError>> {",
  c!"    packet",
  c!"        .lookup(PMIP6_HOME_IPV4_GATEWAY_TYPE)",
  c!"        .map(|v| v.encode_ipv4())",
  c!"}",
  c!"/// Lookup all of the `pmip6_home_ipv4_gateway` ipaddr value from a packet.",
  c!"pub fn lookup_all_pmip6_home_ipv4_gateway(packet: &Packet) -> Result<Vec<Ipv4Addr>, AVPError> {",
  c!"    let mut vec = Vec::new();",
  c!"    for avp in packet.lookup_all(PMIP6_HOME_IPV4_GATEWAY_TYPE) {",
  c!"        vec.push(avp.encode_ipv4()?)",
  c!"    }",
  c!"    Ok(vec)",
  c!"}",
  c!"",
  c!"pub const PMIP6_VISITED_IPV4_GATEWAY_TYPE: AVPType = 162;",
  c!"/// Delete all of `pmip6_visited_ipv4_gateway` values from a packet.",
  c!"pub fn delete_pmip6_visited_ipv4_gateway(packet: &mut Packet) {",
  c!"    packet.delete(PMIP6_VISITED_IPV4_GATEWAY_TYPE);",
  c!"}",
  c!"/// Add `pmip6_visited_ipv4_gateway` ipaddr value to a packet.",
  c!"pub fn add_pmip6_visited_ipv4_gateway(packet: &mut Packet, value: &Ipv4Addr) {",
  c!"    packet.add(AVP::from_ipv4(PMIP6_VISITED_IPV4_GATEWAY_TYPE, value));"]

noncomputable def rfc6572Module_9 : List Str := [
  c!"}",
  c!"/// Lookup a `pmip6_visited_ipv4_gateway` ipaddr value from a packet.",
  c!"///",
  c!"/// It returns the first looked up value. If there is no associated value with `pmip6_visited_ipv4_gateway`, it returns `None`.",
  c!"pub fn lookup_pmip6_visited_ipv4_gateway(packet: &Packet) -> Option<Result<Ipv4Addr, AVPError>> {",
  c!"    packet",
  c!"        .lookup(PMIP6_VISITED_IPV4_GATEWAY_TYPE)",
  c!"        .map(|v| v.encode_ipv4())",
  c!"}",
  c!"/// Lookup all of the `pmip6_visited_ipv4_gateway` ipaddr value from a packet.",
  c!"pub fn lookup_all_pmip6_visited_ipv4_gateway(packet: &Packet) -> Result<Vec<Ipv4Addr>, AVPError> {",
  c!"    let mut vec = Vec::new();",
  c!"    for avp in packet.lookup_all(PMIP6_VISITED_IPV4_GATEWAY_TYPE) {",
  c!"        vec.push(avp.encode_ipv4()?)",
  c!"    }",
  c!"    Ok(vec)",
  c!"}"]

/-- The lines of radius/src/core/rfc6572.rs (1-557). -/
noncomputable def rfc6572Module : List Str :=
  rfc6572Module_0 ++ rfc6572Module_1 ++ rfc6572Module_2 ++ rfc6572Module_3 ++ rfc6572Module_4 ++ rfc6572Module_5 ++ rfc6572Module_6 ++ rfc6572Module_7 ++ rfc6572Module_8 ++ rfc6572Module_9

noncomputable def rfc6677Module_0 : List Str := [
  c!"// Code generated by machine generator; DO NOT EDIT.",
  c!"",
  c!"//! Utility for rfc6677 packet.",
  c!"//!",
  c!"//! This module handles the packet according to the following definition:",
  c!"//! ```text",
  c!"//! //! # -*- text -*-",
  c!"//! # Copyright (C) 2020 The FreeRADIUS Server project and contributors",
  c!"//! # This work is licensed under CC-BY version 4.0 https://creativecommons.org/licenses/by/4.0",
  c!"//! # Version $Id$",
  c!"//! #",
  c!"//! #    Attributes and values defined in RFC 6677",
  c!"//! #    http://www.ietf.org/rfc/rfc6677.txt",
  c!"//! #",
  c!"//!",
  c!"//! ATTRIBUTE    EAP-Lower-Layer                163    integer",
  c!"//!",
  c!"//! VALUE    EAP-Lower-Layer            Wired-IEEE-802.1X    1",
  c!"//! VALUE    EAP-Lower-Layer            IEEE-802.1X-No-Preauth    2",
  c!"//! VALUE    EAP-Lower-Layer            IEEE-802.1X-Preauth    3",
  c!"//! VALUE    EAP-Lower-Layer            IEEE-802.16e        4",
  c!"//! VALUE    EAP-Lower-Layer            IKEv2            5",
  c!"//! VALUE    EAP-Lower-Layer            PPP            6",
  c!"//! VALUE    EAP-Lower-Layer            PANA-No-Preauth        7",
  c!"//! VALUE    EAP-Lower-Layer            GSS-API            8",
  c!"//! VALUE    EAP-Lower-Layer            PANA-Preauth        9",
  c!"//! ```",
  c!"",
  c!"use crate::core::avp::{AVPError, AVPType, AVP};",
  c!"use crate::core::packet::Packet;",
  c!"",
  c!"pub const EAP_LOWER_LAYER_TYPE: AVPType = 163;",
  c!"/// Delete all of `eap_lower_layer` values from a packet.",
  c!"pub fn delete_eap_lower_layer(packet: &mut Packet) {",
  c!"    packet.delete(EAP_LOWER_LAYER_TYPE);",
  c!"}",
  c!"/// Add `eap_lower_layer` value-defined integer value to a packet.",
  c!"pub fn add_eap_lower_layer(packet: &mut Packet, value: EapLowerLayer) {",
  c!"    packet.add(AVP::from_u32(EAP_LOWER_LAYER_TYPE, value));",
  c!"}",
  c!"/// Lookup a `eap_lower_layer` value-defined integer value from a packet.",
  c!"///",
  c!"/// It returns the first looked up value. If there is no associated value with `eap_lower_layer`, it returns `None`.",
  c!"pub fn lookup_eap_lower_layer(packet: &Packet) -> Option<Result<EapLowerLayer, AVPError>> {",
  c!"    packet",
  c!"        .lookup(EAP_LOWER_LAYER_TYPE)",
  c!"        .map(|v| Ok(v.encode_u32()? as EapLowerLayer))",
  c!"}",
  c!"/// Lookup all of the `eap_lower_layer` value-defined integer value from a packet.",
  c!"pub fn lookup_all_eap_lower_layer(packet: &Packet) -> Result<Vec<EapLowerLayer>, AVPError> {",
  c!"    let mut vec = Vec::new();",
  c!"    for avp in packet.lookup_all(EAP_LOWER_LAYER_TYPE) {",
  c!"        vec.push(avp.encode_u32()? as EapLowerLayer)",
  c!"    }",
  c!"    Ok(vec)",
  c!"}",
  c!"",
  c!"pub type EapLowerLayer = u32;",
  c!"pub const EAP_LOWER_LAYER_WIRED_IEEE_802_1X: EapLowerLayer = 1;",
  c!"pub const EAP_LOWER_LAYER_IEEE_802_1X_NO_PREAUTH: EapLowerLayer = 2;"]

noncomputable def rfc6677Module_1 : List Str := [
  c!"pub const EAP_LOWER_LAYER_IEEE_802_1X_PREAUTH: EapLowerLayer = 3;",
  c!"pub const EAP_LOWER_LAYER_IEEE_802_1_6E: EapLowerLayer = 4;",
  c!"pub const EAP_LOWER_LAYER_IK_EV_2: EapLowerLayer = 5;",
  c!"pub const EAP_LOWER_LAYER_PPP: EapLowerLayer = 6;",
  c!"pub const EAP_LOWER_LAYER_PANA_NO_PREAUTH: EapLowerLayer = 7;",
  c!"pub const EAP_LOWER_LAYER_GSS_API: EapLowerLayer = 8;",
  c!"pub const EAP_LOWER_LAYER_PANA_PREAUTH: EapLowerLayer = 9;"]

/-- The lines of radius/src/core/rfc6677.rs (1-67). -/
noncomputable def rfc6677Module : List Str :=
  rfc6677Module_0 ++ rfc6677Module_1

noncomputable def rfc6911Module_0 : List Str := [
  c!"// Code generated by machine generator; DO NOT EDIT.",
  c!"",
  c!"//! Utility for rfc6911 packet.",
  c!"//!",
  c!"//! This module handles the packet according to the following definition:",
  c!"//! ```text",
  c!"//! //! # -*- text -*-",
  c!"//! # Copyright (C) 2020 The FreeRADIUS Server project and contributors",
  c!"//! # This work is licensed under CC-BY version 4.0 https://creativecommons.org/licenses/by/4.0",
  c!"//! # Version $Id$",
  c!"//! #",
  c!"//! #    Attributes and values defined in RFC 6911",
  c!"//! #    http://www.ietf.org/rfc/rfc6911.txt",
  c!"//! #",
  c!"//!",
  c!"//! ATTRIBUTE    Framed-IPV6-Address            168    ipv6addr",
  c!"//! ATTRIBUTE    DNS-Server-IPV6-Address            169    ipv6addr",
  c!"//! ATTRIBUTE    Route-IPV6-Information            170    ipv6prefix",
  c!"//! ATTRIBUTE    Delegated-IPV6-Prefix-Pool        171    string",
  c!"//! ATTRIBUTE    Stateful-IPV6-Address-Pool        172    string",
  c!"//! ```",
  c!"",
  c!"use std::net::Ipv6Addr;",
  c!"",
  c!"use crate::core::avp::{AVPError, AVPType, AVP};",
  c!"use crate::core::packet::Packet;",
  c!"",
  c!"pub const FRAMED_IPV6_ADDRESS_TYPE: AVPType = 168;",
  c!"/// Delete all of `framed_ipv6_address` values from a packet.",
  c!"pub fn delete_framed_ipv6_address(packet: &mut Packet) {",
  c!"    packet.delete(FRAMED_IPV6_ADDRESS_TYPE);",
  c!"}",
  c!"/// Add `framed_ipv6_address` ipv6addr value to a packet.",
  c!"pub fn add_framed_ipv6_address(packet: &mut Packet, value: &Ipv6Addr) {",
  c!"    packet.add(AVP::from_ipv6(FRAMED_IPV6_ADDRESS_TYPE, value));",
  c!"}",
  c!"/// Lookup a `framed_ipv6_address` ipv6addr value from a packet.",
  c!"///",
  c!"/// It returns the first looked up value. If there is no associated value with `framed_ipv6_address`, it returns `None`.",
  c!"pub fn lookup_framed_ipv6_address(packet: &Packet) -> Option<Result<Ipv6Addr, AVPError>> {",
  c!"    packet",
  c!"        .lookup(FRAMED_IPV6_ADDRESS_TYPE)",
  c!"        .map(|v| v.encode_ipv6())",
  c!"}",
  c!"/// Lookup all of the `framed_ipv6_address` ipv6addr value from a packet.",
  c!"pub fn lookup_all_framed_ipv6_address(packet: &Packet) -> Result<Vec<Ipv6Addr>, AVPError> {",
  c!"    let mut vec = Vec::new();",
  c!"    for avp in packet.lookup_all(FRAMED_IPV6_ADDRESS_TYPE) {",
  c!"        vec.push(avp.encode_ipv6()?)",
  c!"    }",
  c!"    Ok(vec)",
  c!"}",
  c!"",
  c!"pub const DNS_SERVER_IPV6_ADDRESS_TYPE: AVPType = 169;",
  c!"/// Delete all of `dns_server_ipv6_address` values from a packet.",
  c!"pub fn delete_dns_server_ipv6_address(packet: &mut Packet) {",
  c!"    packet.delete(DNS_SERVER_IPV6_ADDRESS_TYPE);",
  c!"}",
  c!"/// Add `dns_server_ipv6_address` ipv6addr value to a packet.",
  c!"pub fn add_dns_server_ipv6_address(packet: &mut Packet, value: &Ipv6Addr) {"]

noncomputable def rfc6911Module_1 : List Str := [
  c!"    packet.add(AVP::from_ipv6(DNS_SERVER_IPV6_ADDRESS_TYPE, value));",
  c!"}",
  c!"/// Lookup a `dns_server_ipv6_address` ipv6addr value from a packet.",
  c!"///",
  c!"/// It returns the first looked up value. If there is no associated value with `dns_server_ipv6_address`, it returns `None`.",
  c!"pub fn lookup_dns_server_ipv6_address(packet: &Packet) -> Option<Result<Ipv6Addr, AVPError>> {",
  c!"    packet",
  c!"        .lookup(DNS_SERVER_IPV6_ADDRESS_TYPE)",
  c!"        .map(|v| v.encode_ipv6())",
  c!"}",
  c!"/// Lookup all of the `dns_server_ipv6_address` ipv6addr value from a packet.",
  c!"pub fn lookup_all_dns_server_ipv6_address(packet: &Packet) -> Result<Vec<Ipv6Addr>, AVPError> {",
  c!"    let mut vec = Vec::new();",
  c!"    for avp in packet.lookup_all(DNS_SERVER_IPV6_ADDRESS_TYPE) {",
  c!"        vec.push(avp.encode_ipv6()?)",
  c!"    }",
  c!"    Ok(vec)",
  c!"}",
  c!"",
  c!"pub const ROUTE_IPV6_INFORMATION_TYPE: AVPType = 170;",
  c!"/// Delete all of `route_ipv6_information` values from a packet.",
  c!"pub fn delete_route_ipv6_information(packet: &mut Packet) {",
  c!"    packet.delete(ROUTE_IPV6_INFORMATION_TYPE);",
  c!"}",
  c!"/// Add `route_ipv6_information` ipv6 prefix value to a packet.",
  c!"pub fn add_route_ipv6_information(packet: &mut Packet, value: &[u8]) -> Result<(), AVPError> {",
  c!"    packet.add(AVP::from_ipv6_prefix(ROUTE_IPV6_INFORMATION_TYPE, value)?);",
  c!"    Ok(())",
  c!"}",
  c!"/// Lookup a `route_ipv6_information` ipv6 prefix value from a packet.",
  c!"///",
  c!"/// It returns the first looked up value. If there is no associated value with `route_ipv6_information`, it returns `None`.",
  c!"pub fn lookup_route_ipv6_information(packet: &Packet) -> Option<Result<Vec<u8>, AVPError>> {",
  c!"    packet",
  c!"        .lookup(ROUTE_IPV6_INFORMATION_TYPE)",
  c!"        .map(|v| v.encode_ipv6_prefix())",
  c!"}",
  c!"/// Lookup all of the `route_ipv6_information` ipv6 prefix value from a packet.",
  c!"pub fn lookup_all_route_ipv6_information(packet: &Packet) -> Result<Vec<Vec<u8>>, AVPError> {",
  c!"    let mut vec = Vec::new();",
  c!"    for avp in packet.lookup_all(ROUTE_IPV6_INFORMATION_TYPE) {",
  c!"        vec.push(avp.encode_ipv6_prefix()?)",
  c!"    }",
  c!"    Ok(vec)",
  c!"}",
  c!"",
  c!"pub const DELEGATED_IPV6_PREFIX_POOL_TYPE: AVPType = 171;",
  c!"/// Delete all of `delegated_ipv6_prefix_pool` values from a packet.",
  c!"pub fn delete_delegated_ipv6_prefix_pool(packet: &mut Packet) {",
  c!"    packet.delete(DELEGATED_IPV6_PREFIX_POOL_TYPE);",
  c!"}",
  c!"/// Add `delegated_ipv6_prefix_pool` string value to a packet.",
  c!"pub fn add_delegated_ipv6_prefix_pool(packet: &mut Packet, value: &str) {",
  c!"    packet.add(AVP::from_string(DELEGATED_IPV6_PREFIX_POOL_TYPE, value));",
  c!"}",
  c!"/// Lookup a `delegated_ipv6_prefix_pool` string value from a packet.",
  c!"///",
  c!"/// It returns the first looked up value. If there is no associated value with `delegated_ipv6_prefix_pool`, it returns `None`.",
  c!"pub fn lookup_delegated_ipv6_prefix_pool(packet: &Packet) -> Option<Result<String, AVPError>> {",
  c!"    packet"]

noncomputable def rfc6911Module_2 : List Str := [
  c!"        .lookup(DELEGATED_IPV6_PREFIX_POOL_TYPE)",
  c!"        .map(|v| v.encode_string())",
  c!"}",
  c!"/// Lookup all of the `delegated_ipv6_prefix_pool` string value from a packet.",
  c!"pub fn lookup_all_delegated_ipv6_prefix_pool(packet: &Packet) -> Result<Vec<String>, AVPError> {",
  c!"    let mut vec = Vec::new();",
  c!"    for avp in packet.lookup_all(DELEGATED_IPV6_PREFIX_POOL_TYPE) {",
  c!"        vec.push(avp.encode_string()?)",
  c!"    }",
  c!"    Ok(vec)",
  c!"}",
  c!"",
  c!"pub const STATEFUL_IPV6_ADDRESS_POOL_TYPE: AVPType = 172;",
  c!"/// Delete all of `stateful_ipv6_address_pool` values from a packet.",
  c!"pub fn delete_stateful_ipv6_address_pool(packet: &mut Packet) {",
  c!"    packet.delete(STATEFUL_IPV6_ADDRESS_POOL_TYPE);",
  c!"}",
  c!"/// Add `stateful_ipv6_address_pool` string value to a packet.",
  c!"pub fn add_stateful_ipv6_address_pool(packet: &mut Packet, value: &str) {",
  c!"    packet.add(AVP::from_string(STATEFUL_IPV6_ADDRESS_POOL_TYPE, value));",
  c!"}",
  c!"/// Lookup a `stateful_ipv6_address_pool` string value from a packet.",
  c!"///",
  c!"/// It returns the first looked up value. If there is no associated value with `stateful_ipv6_address_pool`, it returns `None`.",
  c!"pub fn lookup_stateful_ipv6_address_pool(packet: &Packet) -> Option<Result<String, AVPError>> {",
  c!"    packet",
  c!"        .lookup(STATEFUL_IPV6_ADDRESS_POOL_TYPE)",
  c!"        .map(|v| v.encode_string())",
  c!"}",
  c!"/// Lookup all of the `stateful_ipv6_address_pool` string value from a packet.",
  c!"pub fn lookup_all_stateful_ipv6_address_pool(packet: &Packet) -> Result<Vec<String>, AVPError> {",
  c!"    let mut vec = Vec::new();",
  c!"    for avp in packet.lookup_all(STATEFUL_IPV6_ADDRESS_POOL_TYPE) {",
  c!"        vec.push(avp.encode_string()?)",
  c!"    }",
  c!"    Ok(vec)",
  c!"}"]

/-- The lines of radius/src/core/rfc6911.rs (1-157). -/
noncomputable def rfc6911Module : List Str :=
  rfc6911Module_0 ++ rfc6911Module_1 ++ rfc6911Module_2

noncomputable def rfc7055Module_0 : List Str := [
  c!"// Code generated by machine generator; DO NOT EDIT.",
  c!"",
  c!"//! Utility for rfc7055 packet.",
  c!"//!",
  c!"//! This module handles the packet according to the following definition:",
  c!"//! ```text",
  c!"//! //! # -*- text -*-",
  c!"//! # Copyright (C) 2020 The FreeRADIUS Server project and contributors",
  c!"//! # This work is licensed under CC-BY version 4.0 https://creativecommons.org/licenses/by/4.0",
  c!"//! # Version $Id$",
  c!"//! #",
  c!"//! #        Attributes and values defined in RFC 7055",
  c!"//! #        http://www.ietf.org/rfc/rfc7055.txt",
  c!"//! #",
  c!"//!",
  c!"//! ATTRIBUTE    GSS-Acceptor-Service-Name        164    string",
  c!"//! ATTRIBUTE    GSS-Acceptor-Host-Name            165    string",
  c!"//! ATTRIBUTE    GSS-Acceptor-Service-Specifics        166    string",
  c!"//! ATTRIBUTE    GSS-Acceptor-Realm-Name            167    string",
  c!"//! ```",
  c!"",
  c!"use crate::core::avp::{AVPError, AVPType, AVP};",
  c!"use crate::core::packet::Packet;",
  c!"",
  c!"pub const GSS_ACCEPTOR_SERVICE_NAME_TYPE: AVPType = 164;",
  c!"/// Delete all of `gss_acceptor_service_name` values from a packet.",
  c!"pub fn delete_gss_acceptor_service_name(packet: &mut Packet) {",
  c!"    packet.delete(GSS_ACCEPTOR_SERVICE_NAME_TYPE);",
  c!"}",
  c!"/// Add `gss_acceptor_service_name` string value to a packet.",
  c!"pub fn add_gss_acceptor_service_name(packet: &mut Packet, value: &str) {",
  c!"    packet.add(AVP::from_string(GSS_ACCEPTOR_SERVICE_NAME_TYPE, value));",
  c!"}",
  c!"/// Lookup a `gss_acceptor_service_name` string value from a packet.",
  c!"///",
  c!"/// It returns the first looked up value. If there is no associated value with `gss_acceptor_service_name`, it returns `None`.",
  c!"pub fn lookup_gss_acceptor_service_name(packet: &Packet) -> Option<Result<String, AVPError>> {",
  c!"    packet",
  c!"        .lookup(GSS_ACCEPTOR_SERVICE_NAME_TYPE)",
  c!"        .map(|v| v.encode_string())",
  c!"}",
  c!"/// Lookup all of the `gss_acceptor_service_name` string value from a packet.",
  c!"pub fn lookup_all_gss_acceptor_service_name(packet: &Packet) -> Result<Vec<String>, AVPError> {",
  c!"    let mut vec = Vec::new();",
  c!"    for avp in packet.lookup_all(GSS_ACCEPTOR_SERVICE_NAME_TYPE) {",
  c!"        vec.push(avp.encode_string()?)",
  c!"    }",
  c!"    Ok(vec)",
  c!"}",
  c!"",
  c!"pub const GSS_ACCEPTOR_HOST_NAME_TYPE: AVPType = 165;",
  c!"/// Delete all of `gss_acceptor_host_name` values from a packet.",
  c!"pub fn delete_gss_acceptor_host_name(packet: &mut Packet) {",
  c!"    packet.delete(GSS_ACCEPTOR_HOST_NAME_TYPE);",
  c!"}",
  c!"/// Add `gss_acceptor_host_name` string value to a packet.",
  c!"pub fn add_gss_acceptor_host_name(packet: &mut Packet, value: &str) {",
  c!"    packet.add(AVP::from_string(GSS_ACCEPTOR_HOST_NAME_TYPE, value));",
  c!"}",
  c!"/// Lookup a `gss_acceptor_host_name` string value from a packet."]

noncomputable def rfc7055Module_1 : List Str := [
  c!"///",
  c!"/// It returns the first looked up value. If there is no associated value with `gss_acceptor_host_name`, it returns `None`.",
  c!"pub fn lookup_gss_acceptor_host_name(packet: &Packet) -> Option<Result<String, AVPError>> {",
  c!"    packet",
  c!"        .lookup(GSS_ACCEPTOR_HOST_NAME_TYPE)",
  c!"        .map(|v| v.encode_string())",
  c!"}",
  c!"/// Lookup all of the `gss_acceptor_host_name` string value from a packet.",
  c!"pub fn lookup_all_gss_acceptor_host_name(packet: &Packet) -> Result<Vec<String>, AVPError> {",
  c!"    let mut vec = Vec::new();",
  c!"    for avp in packet.lookup_all(GSS_ACCEPTOR_HOST_NAME_TYPE) {",
  c!"        vec.push(avp.encode_string()?)",
  c!"    }",
  c!"    Ok(vec)",
  c!"}",
  c!"",
  c!"pub const GSS_ACCEPTOR_SERVICE_SPECIFICS_TYPE: AVPType = 166;",
  c!"/// Delete all of `gss_acceptor_service_specifics` values from a packet.",
  c!"pub fn delete_gss_acceptor_service_specifics(packet: &mut Packet) {",
  c!"    packet.delete(GSS_ACCEPTOR_SERVICE_SPECIFICS_TYPE);",
  c!"}",
  c!"/// Add `gss_acceptor_service_specifics` string value to a packet.",
  c!"pub fn add_gss_acceptor_service_specifics(packet: &mut Packet, value: &str) {",
  c!"    packet.add(AVP::from_string(GSS_ACCEPTOR_SERVICE_SPECIFICS_TYPE, value));",
  c!"}",
  c!"/// Lookup a `gss_acceptor_service_specifics` string value from a packet.",
  c!"///",
  c!"/// It returns the first looked up value. If there is no associated value with `gss_acceptor_service_specifics`, it returns `None`.",
  c!"pub fn lookup_gss_acceptor_service_specifics(packet: &Packet) -> Option<Result<String, AVPError>> {",
  c!"    packet",
  c!"        .lookup(GSS_ACCEPTOR_SERVICE_SPECIFICS_TYPE)",
  c!"        .map(|v| v.encode_string())",
  c!"}",
  c!"/// Lookup all of the `gss_acceptor_service_specifics` string value from a packet.",
  c!"pub fn lookup_all_gss_acceptor_service_specifics(packet: &Packet) -> Result<Vec<String>, AVPError> {",
  c!"    let mut vec = Vec::new();",
  c!"    for avp in packet.lookup_all(GSS_ACCEPTOR_SERVICE_SPECIFICS_TYPE) {",
  c!"        vec.push(avp.encode_string()?)",
  c!"    }",
  c!"    Ok(vec)",
  c!"}",
  c!"",
  c!"pub const GSS_ACCEPTOR_REALM_NAME_TYPE: AVPType = 167;",
  c!"/// Delete all of `gss_acceptor_realm_name` values from a packet.",
  c!"pub fn delete_gss_acceptor_realm_name(packet: &mut Packet) {",
  c!"    packet.delete(GSS_ACCEPTOR_REALM_NAME_TYPE);",
  c!"}",
  c!"/// Add `gss_acceptor_realm_name` string value to a packet.",
  c!"pub fn add_gss_acceptor_realm_name(packet: &mut Packet, value: &str) {",
  c!"    packet.add(AVP::from_string(GSS_ACCEPTOR_REALM_NAME_TYPE, value));",
  c!"}",
  c!"/// Lookup a `gss_acceptor_realm_name` string value from a packet.",
  c!"///",
  c!"/// It returns the first looked up value. If there is no associated value with `gss_acceptor_realm_name`, it returns `None`.",
  c!"pub fn lookup_gss_acceptor_realm_name(packet: &Packet) -> Option<Result<String, AVPError>> {",
  c!"    packet",
  c!"        .lookup(GSS_ACCEPTOR_REALM_NAME_TYPE)",
  c!"        .map(|v| v.encode_string())",
  c!"}",
  c!"/// Lookup all of the `gss_acceptor_realm_name` string value from a packet."]

noncomputable def rfc7055Module_2 : List Str := [
  c!"pub fn lookup_all_gss_acceptor_realm_name(packet: &Packet) -> Result<Vec<String>, AVPError> {",
  c!"    let mut vec = Vec::new();",
  c!"    for avp in packet.lookup_all(GSS_ACCEPTOR_REALM_NAME_TYPE) {",
  c!"        vec.push(avp.encode_string()?)",
  c!"    }",
  c!"    Ok(vec)",
  c!"}"]

/-- The lines of radius/src/core/rfc7055.rs (1-127). -/
noncomputable def rfc7055Module : List Str :=
  rfc7055Module_0 ++ rfc7055Module_1 ++ rfc7055Module_2

noncomputable def rfc7155Module_0 : List Str := [
  c!"// Code generated by machine generator; DO NOT EDIT.",
  c!"",
  c!"//! Utility for rfc7155 packet.",
  c!"//!",
  c!"//! This module handles the packet according to the following definition:",
  c!"//! ```text",
  c!"//! //! # -*- text -*-",
  c!"//! # Copyright (C) 2020 The FreeRADIUS Server project and contributors",
  c!"//! # This work is licensed under CC-BY version 4.0 https://creativecommons.org/licenses/by/4.0",
  c!"//! # Version $Id$",
  c!"//! #",
  c!"//! #        Attributes and values defined in RFC 7155",
  c!"//! #        http://www.ietf.org/rfc/rfc7155.txt",
  c!"//! #",
  c!"//!",
  c!"//! # The Value field contains two octets (00 - 99).  ANSI T1.113 and",
  c!"//! # BELLCORE 394 can be used for additional information about these",
  c!"//! # values and their use.",
  c!"//! ATTRIBUTE    Originating-Line-Info            94    octets[2]",
  c!"//! ```",
  c!"",
  c!"use crate::core::avp::{AVPError, AVPType, AVP};",
  c!"use crate::core::packet::Packet;",
  c!"",
  c!"pub const ORIGINATING_LINE_INFO_TYPE: AVPType = 94;",
  c!"/// Delete all of `originating_line_info` values from a packet.",
  c!"pub fn delete_originating_line_info(packet: &mut Packet) {",
  c!"    packet.delete(ORIGINATING_LINE_INFO_TYPE);",
  c!"}",
  c!"/// Add `originating_line_info` fixed-length octets value to a packet.",
  c!"pub fn add_originating_line_info(packet: &mut Packet, value: &[u8]) -> Result<(), AVPError> {",
  c!"    if value.len() != 2 {",
  c!"        return Err(AVPError::InvalidAttributeLengthError(",
  c! r#"            "2 bytes".to_owned(),"#,
  c!"            value.len(),",
  c!"        ));",
  c!"    }",
  c!"    packet.add(AVP::from_bytes(ORIGINATING_LINE_INFO_TYPE, value));",
  c!"    Ok(())",
  c!"}",
  c!"/// Lookup a `originating_line_info` fixed-length octets value from a packet.",
  c!"///",
  c!"/// It returns the first looked up value. If there is no associated value with `originating_line_info`, it returns `None`.",
  c!"pub fn lookup_originating_line_info(packet: &Packet) -> Option<Vec<u8>> {",
  c!"    packet",
  c!"        .lookup(ORIGINATING_LINE_INFO_TYPE)",
  c!"        .map(|v| v.encode_bytes())",
  c!"}",
  c!"/// Lookup all of the `originating_line_info` fixed-length octets value from a packet.",
  c!"pub fn lookup_all_originating_line_info(packet: &Packet) -> Vec<Vec<u8>> {",
  c!"    let mut vec = Vec::new();",
  c!"    for avp in packet.lookup_all(ORIGINATING_LINE_INFO_TYPE) {",
  c!"        vec.push(avp.encode_bytes())",
  c!"    }",
  c!"    vec",
  c!"}"]

/-- The lines of radius/src/core/rfc7155.rs (1-56). -/
noncomputable def rfc7155Module : List Str :=
  rfc7155Module_0

end Radius.Gen.Shipped
