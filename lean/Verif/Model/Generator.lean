import Verif.Basic
import Verif.Model.Accessors
import Verif.Model.Inflector
/-! # The code generator — code-generator/src/main.rs

Not modelled: the command line, opening and creating files (the model takes the dictionary texts in the order of their sorted
paths and returns the texts written), invalid UTF-8 in a dictionary (`unwrap` panics). -/
namespace Radius.Gen

/-- `ATTRIBUTE_KIND`, `VALUE_KIND` — code-generator/src/main.rs:12-13. -/
noncomputable def ATTRIBUTE_KIND : Str := c!"ATTRIBUTE"
@[inherit_doc ATTRIBUTE_KIND] noncomputable def VALUE_KIND : Str := c!"VALUE"
/-- `RADIUS_VALUE_TYPE` — code-generator/src/main.rs:15. -/
noncomputable def RADIUS_VALUE_TYPE : Str := c!"u32"
/-- The options of an attribute — code-generator/src/main.rs:17-20. -/
noncomputable def USER_PASSWORD_TYPE_OPT : Str := c!"encrypt=1"
@[inherit_doc USER_PASSWORD_TYPE_OPT] noncomputable def TUNNEL_PASSWORD_TYPE_OPT : Str := c!"encrypt=2"
@[inherit_doc USER_PASSWORD_TYPE_OPT] noncomputable def HAS_TAG_TYPE_OPT : Str := c!"has_tag"
@[inherit_doc USER_PASSWORD_TYPE_OPT] noncomputable def CONCAT_TYPE_OPT : Str := c!"concat"

/-- `EncryptionType` — code-generator/src/main.rs:22-26. -/
inductive EncryptionType where
  | UserPassword | TunnelPassword
deriving DecidableEq

/-- `RadiusAttributeValueType` — code-generator/src/main.rs:44-60. -/
inductive ValueType where
  | String | UserPassword | TunnelPassword | Octets | IpAddr | Ipv4Prefix | Ipv6Addr | Ipv6Prefix | IfId | Date
  | Integer | Short | VSA
deriving DecidableEq

/-- `RadiusAttribute` — code-generator/src/main.rs:28-36. -/
structure RadiusAttribute where
  name : Str
  typ : UInt8
  valueType : ValueType
  fixedOctetsLength : Option Nat
  concatOctets : Bool
  hasTag : Bool
deriving DecidableEq

/-- `RadiusValue` — code-generator/src/main.rs:38-42. -/
structure RadiusValue where
  name : Str
  value : UInt16
deriving DecidableEq

/-- `RadiusAttributeValueType::from_str` — code-generator/src/main.rs:62-80. -/
noncomputable def ValueType.fromStr (s : Str) : Option ValueType :=
  bif strEq s c!"string" then some .String
  else bif strEq s c!"octets" then some .Octets
  else bif strEq s c!"ipaddr" then some .IpAddr
  else bif strEq s c!"ipv4prefix" then some .Ipv4Prefix
  else bif strEq s c!"ipv6addr" then some .Ipv6Addr
  else bif strEq s c!"ipv6prefix" then some .Ipv6Prefix
  else bif strEq s c!"ifid" then some .IfId
  else bif strEq s c!"date" then some .Date
  else bif strEq s c!"integer" then some .Integer
  else bif strEq s c!"short" then some .Short
  else bif strEq s c!"vsa" then some .VSA
  else none

/-! ## Reading a dictionary -/

/-- `BufRead::lines`: the pieces between newlines without a carriage return before the newline; no piece after a final
newline. -/
noncomputable def readLines (text : Str) : List Str := go text []
where
  /-- `cur` is the reversed beginning of the current line. -/
  go : Str → Str → List Str
    | [], [] => []
    | [], c :: cs => [(c :: cs).reverse]
    | c :: rest, cur =>
      bif Nat.beq c 10 then (stripCr cur).reverse :: go rest [] else go rest (c :: cur)
  /-- Drop a carriage return at the end of the (reversed) line. -/
  stripCr : Str → Str
    | 13 :: cs => cs
    | cs => cs

/-- `Regex::new(r"^(?:#.*|)$")`: a line that is empty or starts with `#` (a line contains no newline). -/
noncomputable def lineFilter : Str → Bool
  | [] => true
  | c :: _ => Nat.beq c 35

/-- `Regex::new(r"\s+").split(line)`: the pieces between runs of white space. `cur` is the reversed current piece, `skip` says that
the previous character is white space. -/
noncomputable def splitWs : Str → (cur : Str) → (skip : Bool) → List Str
  | [], cur, _ => [cur.reverse]
  | c :: cs, cur, skip =>
    bif isSpace c then
      bif skip then splitWs cs cur true else cur.reverse :: splitWs cs [] true
    else splitWs cs (c :: cur) false

/-- `Regex::new(r"\s*?#.+?$").replace(item, "")` for an item without white space: cut at the first `#` unless it is the last
character. -/
noncomputable def cutComment : Str → Str
  | [] => []
  | c :: cs => bif Nat.beq c 35 && !cs.isEmpty then [] else c :: cutComment cs

/-- `Regex::new(r"^octets\[(\d+)]$").captures(item)`: the text between the brackets. `\d` is the Unicode class `Nd`, `nd` its
non-ASCII part. -/
noncomputable def fixedOctets (nd : Nat → Bool) (item : Str) : Option Str :=
  bif strEq (item.take 7) c!"octets[" then
    match (item.drop 7).reverse with
    | 93 :: d :: ds => bif (d :: ds).all (fun c => isDigit c || nd c) then some (d :: ds).reverse else none
    | _ => none
  else none

/-- The options read from the fifth item — code-generator/src/main.rs:936-960. -/
structure Options where
  encryption : Option EncryptionType := none
  hasTag : Bool := false
  concatOctets : Bool := false
deriving DecidableEq

/-- One step of the loop over the options. -/
noncomputable def Options.read (o : Options) (opt : Str) : Options :=
  bif strEq opt USER_PASSWORD_TYPE_OPT then { o with encryption := some .UserPassword }
  else bif strEq opt TUNNEL_PASSWORD_TYPE_OPT then { o with encryption := some .TunnelPassword }
  else bif strEq opt HAS_TAG_TYPE_OPT then { o with hasTag := true }
  else bif strEq opt CONCAT_TYPE_OPT then { o with concatOctets := true }
  else o

/-- `Str` order, the order of the keys of a `BTreeMap<String, _>`. -/
noncomputable def strLt : Str → Str → Bool
  | _, [] => false
  | [], _ :: _ => true
  | a :: as, b :: bs => bif Nat.beq a b then strLt as bs else Nat.ble (a + 1) b

/-- `BTreeMap<String, Vec<RadiusValue>>`: entries in the order of the keys. -/
abbrev ValueMap := List (Str × List RadiusValue)

/-- Push a value to the entry of an attribute — code-generator/src/main.rs:1011-1019. -/
noncomputable def pushValue (name : Str) (v : RadiusValue) : ValueMap → ValueMap
  | [] => [(name, [v])]
  | (k, vs) :: rest =>
    bif strEq k name then (k, vs ++ [v]) :: rest
    else bif strLt name k then (name, [v]) :: (k, vs) :: rest
    else (k, vs) :: pushValue name v rest

/-- `DictParsed` — code-generator/src/main.rs:908. -/
structure Dict where
  attributes : List RadiusAttribute := []
  values : ValueMap := []
deriving DecidableEq

/-- `usize::MAX`. -/
noncomputable def USIZE_MAX : Nat := 18446744073709551615

/-- The value type of an attribute line — code-generator/src/main.rs:962-990. -/
noncomputable def readType (nd : Nat → Bool) (item : Str) (encryption : Option EncryptionType) : Out Str (ValueType × Option Nat) :=
  match ValueType.fromStr item with
  | some .String =>
    match encryption with
    | some .UserPassword => .ok (.UserPassword, none)
    | some .TunnelPassword => .ok (.TunnelPassword, none)
    | none => .ok (.String, none)
  | some t => .ok (t, none)
  | none =>
    match fixedOctets nd item with
    | some ds =>
      match parseUnsigned USIZE_MAX ds with
      | some n => .ok (.Octets, some n)
      | none => .panic
    | none => .err (c!"invalid type has come => " ++ item)

/-- `items[2].parse().unwrap()` and `value.parse().unwrap()`. -/
noncomputable def parseUnwrap (max : Nat) (s : Str) : Out Str Nat :=
  match parseUnsigned max s with
  | some n => .ok n
  | none => .panic

/-- The body of the loop of `parse_dict_file` — code-generator/src/main.rs:922-1024. -/
noncomputable def parseLine (nd : Nat → Bool) (d : Dict) (line : Str) : Out Str Dict :=
  bif lineFilter line then .ok d
  else match splitWs line [] false with
    | kind :: i1 :: i2 :: i3 :: more =>
      bif strEq kind ATTRIBUTE_KIND then do
        let opts : Options := match more with
          | [] => {}
          | i4 :: _ => (splitOn (fun c => Nat.beq c 44) i4).foldl Options.read {}
        let (valueType, fixedOctetsLength) ← readType nd i3 opts.encryption
        let typ ← parseUnwrap 255 i2
        .ok { d with attributes := d.attributes ++
          [{ name := i1, typ := UInt8.ofNat typ, valueType, fixedOctetsLength, concatOctets := opts.concatOctets,
             hasTag := opts.hasTag }] }
      else bif strEq kind VALUE_KIND then do
        let value ← parseUnwrap 65535 (cutComment i3)
        .ok { d with values := pushValue i1 { name := i2, value := UInt16.ofNat value } d.values }
      else .err (c!"unexpected kind has come => " ++ kind)
    | _ => .err c!"the number of items is lacked in a line"

/-- The loop of `parse_dict_file`. -/
noncomputable def parseLines (nd : Nat → Bool) (d : Dict) : List Str → Out Str Dict
  | [] => .ok d
  | line :: rest => do
    let d ← parseLine nd d line
    parseLines nd d rest

/-- `parse_dict_file` — code-generator/src/main.rs:910-1031. -/
noncomputable def parseDict (nd : Nat → Bool) (text : Str) : Out Str Dict := parseLines nd {} (readLines text)

/-! ## Writing a module -/

/-- Where `format!` is in its template. -/
inductive FormatState where
  | text | opened | closed
  | hole (name : Str)

/-- The argument of `format!` with the given name. -/
noncomputable def argument (name : Str) : List (Str × Str) → Str
  | [] => []
  | (k, v) :: rest => bif strEq k name then v else argument name rest

/-- `format!(template, args)`: `{{` and `}}` stand for braces, `{name}` for an argument. -/
noncomputable def format (args : List (Str × Str)) : Str → FormatState → Str
  | [], _ => []
  | c :: cs, .text =>
    bif Nat.beq c 123 then format args cs .opened
    else bif Nat.beq c 125 then format args cs .closed
    else c :: format args cs .text
  | c :: cs, .opened => bif Nat.beq c 123 then 123 :: format args cs .text else format args cs (.hole [c])
  | _ :: cs, .closed => 125 :: format args cs .text
  | c :: cs, .hole name =>
    bif Nat.beq c 125 then argument name.reverse args ++ format args cs .text
    else format args cs (.hole (c :: name))

/-- `generate_common_attribute_code` — code-generator/src/main.rs:378-397. -/
noncomputable def generateCommonAttributeCode (methodIdentifier typeIdentifier typeValue : Str) : Str :=
  format [(c!"method_identifier", methodIdentifier), (c!"type_identifier", typeIdentifier),
    (c!"type_value", typeValue)]
    c!"
pub const {type_identifier}: AVPType = {type_value};
/// Delete all of `{method_identifier}` values from a packet.
pub fn delete_{method_identifier}(packet: &mut Packet) {{
    packet.delete({type_identifier});
}}
" .text

/-- `generate_string_attribute_code` — code-generator/src/main.rs:399-426. -/
noncomputable def generateStringAttributeCode (methodIdentifier typeIdentifier : Str) : Str :=
  format [(c!"method_identifier", methodIdentifier), (c!"type_identifier", typeIdentifier)]
    c!"/// Add `{method_identifier}` string value to a packet.
pub fn add_{method_identifier}(packet: &mut Packet, value: &str) {{
    packet.add(AVP::from_string({type_identifier}, value));
}}
/// Lookup a `{method_identifier}` string value from a packet.
///
/// It returns the first looked up value. If there is no associated value with `{method_identifier}`, it returns `None`.
pub fn lookup_{method_identifier}(packet: &Packet) -> Option<Result<String, AVPError>> {{
    packet.lookup({type_identifier}).map(|v| v.encode_string())
}}
/// Lookup all of the `{method_identifier}` string value from a packet.
pub fn lookup_all_{method_identifier}(packet: &Packet) -> Result<Vec<String>, AVPError> {{
    let mut vec = Vec::new();
    for avp in packet.lookup_all({type_identifier}) {{
        vec.push(avp.encode_string()?)
    }}
    Ok(vec)
}}
" .text

/-- `generate_tagged_string_attribute_code` — code-generator/src/main.rs:428-455. -/
noncomputable def generateTaggedStringAttributeCode (methodIdentifier typeIdentifier : Str) : Str :=
  format [(c!"method_identifier", methodIdentifier), (c!"type_identifier", typeIdentifier)]
    c!"/// Add `{method_identifier}` tagged string value to a packet.
pub fn add_{method_identifier}(packet: &mut Packet, tag: Option<&Tag>, value: &str) {{
    packet.add(AVP::from_tagged_string({type_identifier}, tag, value));
}}
/// Lookup a `{method_identifier}` tagged string value from a packet.
///
/// It returns the first looked up value. If there is no associated value with `{method_identifier}`, it returns `None`.
pub fn lookup_{method_identifier}(packet: &Packet) -> Option<Result<(String, Option<Tag>), AVPError>> {{
    packet.lookup({type_identifier}).map(|v| v.encode_tagged_string())
}}
/// Lookup all of the `{method_identifier}` tagged string value from a packet.
pub fn lookup_all_{method_identifier}(packet: &Packet) -> Result<Vec<(String, Option<Tag>)>, AVPError> {{
    let mut vec = Vec::new();
    for avp in packet.lookup_all({type_identifier}) {{
        vec.push(avp.encode_tagged_string()?)
    }}
    Ok(vec)
}}
" .text

/-- `generate_user_password_attribute_code` — code-generator/src/main.rs:457-484. -/
noncomputable def generateUserPasswordAttributeCode (methodIdentifier typeIdentifier : Str) : Str :=
  format [(c!"method_identifier", methodIdentifier), (c!"type_identifier", typeIdentifier)]
    c!"/// Add `{method_identifier}` user-password value to a packet.
pub fn add_{method_identifier}(packet: &mut Packet, value: &[u8]) -> Result<(), AVPError> {{
    packet.add(AVP::from_user_password({type_identifier}, value, packet.get_secret(), packet.get_authenticator())?);
    Ok(())
}}
/// Lookup a `{method_identifier}` user-password value from a packet.
///
/// It returns the first looked up value. If there is no associated value with `{method_identifier}`, it returns `None`.
pub fn lookup_{method_identifier}(packet: &Packet) -> Option<Result<Vec<u8>, AVPError>> {{
    packet.lookup({type_identifier}).map(|v| v.encode_user_password(packet.get_secret(), packet.get_authenticator()))
}}
/// Lookup all of the `{method_identifier}` user-password value from a packet.
pub fn lookup_all_{method_identifier}(packet: &Packet) -> Result<Vec<Vec<u8>>, AVPError> {{
    let mut vec = Vec::new();
    for avp in packet.lookup_all({type_identifier}) {{
        vec.push(avp.encode_user_password(packet.get_secret(), packet.get_authenticator())?)
    }}
    Ok(vec)
}}
" .text

/-- `generate_tunnel_password_attribute_code` — code-generator/src/main.rs:486-513. -/
noncomputable def generateTunnelPasswordAttributeCode (methodIdentifier typeIdentifier : Str) : Str :=
  format [(c!"method_identifier", methodIdentifier), (c!"type_identifier", typeIdentifier)]
    c!"/// Add `{method_identifier}` tunnel-password value to a packet.
pub fn add_{method_identifier}(packet: &mut Packet, tag: Option<&Tag>, value: &[u8]) -> Result<(), AVPError> {{
    packet.add(AVP::from_tunnel_password({type_identifier}, tag, value, packet.get_secret(), packet.get_authenticator())?);
    Ok(())
}}
/// Lookup a `{method_identifier}` tunnel-password value from a packet.
///
/// It returns the first looked up value. If there is no associated value with `{method_identifier}`, it returns `None`.
pub fn lookup_{method_identifier}(packet: &Packet) -> Option<Result<(Vec<u8>, Tag), AVPError>> {{
    packet.lookup({type_identifier}).map(|v| v.encode_tunnel_password(packet.get_secret(), packet.get_authenticator()))
}}
/// Lookup all of the `{method_identifier}` tunnel-password value from a packet.
pub fn lookup_all_{method_identifier}(packet: &Packet) -> Result<Vec<(Vec<u8>, Tag)>, AVPError> {{
    let mut vec = Vec::new();
    for avp in packet.lookup_all({type_identifier}) {{
        vec.push(avp.encode_tunnel_password(packet.get_secret(), packet.get_authenticator())?)
    }}
    Ok(vec)
}}
" .text

/-- `generate_octets_attribute_code` — code-generator/src/main.rs:515-541. -/
noncomputable def generateOctetsAttributeCode (methodIdentifier typeIdentifier : Str) : Str :=
  format [(c!"method_identifier", methodIdentifier), (c!"type_identifier", typeIdentifier)]
    c!"/// Add `{method_identifier}` octets value to a packet.
pub fn add_{method_identifier}(packet: &mut Packet, value: &[u8]) {{
    packet.add(AVP::from_bytes({type_identifier}, value));
}}
/// Lookup a `{method_identifier}` octets value from a packet.
///
/// It returns the first looked up value. If there is no associated value with `{method_identifier}`, it returns `None`.
pub fn lookup_{method_identifier}(packet: &Packet) -> Option<Vec<u8>> {{
    packet.lookup({type_identifier}).map(|v| v.encode_bytes())
}}
/// Lookup all of the `{method_identifier}` octets value from a packet.
pub fn lookup_all_{method_identifier}(packet: &Packet) -> Vec<Vec<u8>> {{
    let mut vec = Vec::new();
    for avp in packet.lookup_all({type_identifier}) {{
        vec.push(avp.encode_bytes())
    }}
    vec
}}
" .text

/-- `generate_concat_octets_attribute_code` — code-generator/src/main.rs:543-570. -/
noncomputable def generateConcatOctetsAttributeCode (methodIdentifier typeIdentifier : Str) : Str :=
  format [(c!"method_identifier", methodIdentifier), (c!"type_identifier", typeIdentifier)]
    c!"pub fn add_{method_identifier}(packet: &mut Packet, value: &[u8]) {{
    packet.extend(
        value
            .chunks(253)
            .map(|chunk| AVP::from_bytes({type_identifier}, chunk))
            .collect(),
    );
}}
pub fn lookup_{method_identifier}(packet: &Packet) -> Option<Vec<u8>> {{
    let avps = packet.lookup_all({type_identifier});
    match avps.is_empty() {{
        true => None,
        false => Some(avps.into_iter().fold(Vec::new(), |mut acc, v| {{
            acc.extend(v.encode_bytes());
            acc
        }})),
    }}
}}
" .text

/-- `generate_fixed_length_octets_attribute_code` — code-generator/src/main.rs:572-604. -/
noncomputable def generateFixedLengthOctetsAttributeCode (methodIdentifier typeIdentifier fixedOctetsLength : Str) : Str :=
  format [(c!"method_identifier", methodIdentifier), (c!"type_identifier", typeIdentifier),
    (c!"fixed_octets_length", fixedOctetsLength)]
    c! r#"/// Add `{method_identifier}` fixed-length octets value to a packet.
pub fn add_{method_identifier}(packet: &mut Packet, value: &[u8]) -> Result<(), AVPError> {{
    if value.len() != {fixed_octets_length} {{
        return Err(AVPError::InvalidAttributeLengthError("{fixed_octets_length} bytes".to_owned(), value.len()));
    }}
    packet.add(AVP::from_bytes({type_identifier}, value));
    Ok(())
}}
/// Lookup a `{method_identifier}` fixed-length octets value from a packet.
///
/// It returns the first looked up value. If there is no associated value with `{method_identifier}`, it returns `None`.
pub fn lookup_{method_identifier}(packet: &Packet) -> Option<Vec<u8>> {{
    packet.lookup({type_identifier}).map(|v| v.encode_bytes())
}}
/// Lookup all of the `{method_identifier}` fixed-length octets value from a packet.
pub fn lookup_all_{method_identifier}(packet: &Packet) -> Vec<Vec<u8>> {{
    let mut vec = Vec::new();
    for avp in packet.lookup_all({type_identifier}) {{
        vec.push(avp.encode_bytes())
    }}
    vec
}}
"# .text

/-- `generate_ipaddr_attribute_code` — code-generator/src/main.rs:606-633. -/
noncomputable def generateIpaddrAttributeCode (methodIdentifier typeIdentifier : Str) : Str :=
  format [(c!"method_identifier", methodIdentifier), (c!"type_identifier", typeIdentifier)]
    c!"/// Add `{method_identifier}` ipaddr value to a packet.
pub fn add_{method_identifier}(packet: &mut Packet, value: &Ipv4Addr) {{
    packet.add(AVP::from_ipv4({type_identifier}, value));
}}
/// Lookup a `{method_identifier}` ipaddr value from a packet.
///
/// It returns the first looked up value. If there is no associated value with `{method_identifier}`, it returns `None`.
pub fn lookup_{method_identifier}(packet: &Packet) -> Option<Result<Ipv4Addr, AVPError>> {{
    packet.lookup({type_identifier}).map(|v| v.encode_ipv4())
}}
/// Lookup all of the `{method_identifier}` ipaddr value from a packet.
pub fn lookup_all_{method_identifier}(packet: &Packet) -> Result<Vec<Ipv4Addr>, AVPError> {{
    let mut vec = Vec::new();
    for avp in packet.lookup_all({type_identifier}) {{
        vec.push(avp.encode_ipv4()?)
    }}
    Ok(vec)
}}
" .text

/-- `generate_ipv4_prefix_attribute_code` — code-generator/src/main.rs:635-663. -/
noncomputable def generateIpv4PrefixAttributeCode (methodIdentifier typeIdentifier : Str) : Str :=
  format [(c!"method_identifier", methodIdentifier), (c!"type_identifier", typeIdentifier)]
    c!"/// Add `{method_identifier}` ipv4 prefix value to a packet.
pub fn add_{method_identifier}(packet: &mut Packet, value: &[u8]) -> Result<(), AVPError> {{
    packet.add(AVP::from_ipv4_prefix({type_identifier}, value)?);
    Ok(())
}}
/// Lookup a `{method_identifier}` ipv4 prefix value from a packet.
///
/// It returns the first looked up value. If there is no associated value with `{method_identifier}`, it returns `None`.
pub fn lookup_{method_identifier}(packet: &Packet) -> Option<Result<Vec<u8>, AVPError>> {{
    packet.lookup({type_identifier}).map(|v| v.encode_ipv4_prefix())
}}
/// Lookup all of the `{method_identifier}` ipv4 prefix value from a packet.
pub fn lookup_all_{method_identifier}(packet: &Packet) -> Result<Vec<Vec<u8>>, AVPError> {{
    let mut vec = Vec::new();
    for avp in packet.lookup_all({type_identifier}) {{
        vec.push(avp.encode_ipv4_prefix()?)
    }}
    Ok(vec)
}}
" .text

/-- `generate_ipv6addr_attribute_code` — code-generator/src/main.rs:665-692. -/
noncomputable def generateIpv6addrAttributeCode (methodIdentifier typeIdentifier : Str) : Str :=
  format [(c!"method_identifier", methodIdentifier), (c!"type_identifier", typeIdentifier)]
    c!"/// Add `{method_identifier}` ipv6addr value to a packet.
pub fn add_{method_identifier}(packet: &mut Packet, value: &Ipv6Addr) {{
    packet.add(AVP::from_ipv6({type_identifier}, value));
}}
/// Lookup a `{method_identifier}` ipv6addr value from a packet.
///
/// It returns the first looked up value. If there is no associated value with `{method_identifier}`, it returns `None`.
pub fn lookup_{method_identifier}(packet: &Packet) -> Option<Result<Ipv6Addr, AVPError>> {{
    packet.lookup({type_identifier}).map(|v| v.encode_ipv6())
}}
/// Lookup all of the `{method_identifier}` ipv6addr value from a packet.
pub fn lookup_all_{method_identifier}(packet: &Packet) -> Result<Vec<Ipv6Addr>, AVPError> {{
    let mut vec = Vec::new();
    for avp in packet.lookup_all({type_identifier}) {{
        vec.push(avp.encode_ipv6()?)
    }}
    Ok(vec)
}}
" .text

/-- `generate_ipv6_prefix_attribute_code` — code-generator/src/main.rs:694-722. -/
noncomputable def generateIpv6PrefixAttributeCode (methodIdentifier typeIdentifier : Str) : Str :=
  format [(c!"method_identifier", methodIdentifier), (c!"type_identifier", typeIdentifier)]
    c!"/// Add `{method_identifier}` ipv6 prefix value to a packet.
pub fn add_{method_identifier}(packet: &mut Packet, value: &[u8]) -> Result<(), AVPError> {{
    packet.add(AVP::from_ipv6_prefix({type_identifier}, value)?);
    Ok(())
}}
/// Lookup a `{method_identifier}` ipv6 prefix value from a packet.
///
/// It returns the first looked up value. If there is no associated value with `{method_identifier}`, it returns `None`.
pub fn lookup_{method_identifier}(packet: &Packet) -> Option<Result<Vec<u8>, AVPError>> {{
    packet.lookup({type_identifier}).map(|v| v.encode_ipv6_prefix())
}}
/// Lookup all of the `{method_identifier}` ipv6 prefix value from a packet.
pub fn lookup_all_{method_identifier}(packet: &Packet) -> Result<Vec<Vec<u8>>, AVPError> {{
    let mut vec = Vec::new();
    for avp in packet.lookup_all({type_identifier}) {{
        vec.push(avp.encode_ipv6_prefix()?)
    }}
    Ok(vec)
}}
" .text

/-- `generate_date_attribute_code` — code-generator/src/main.rs:724-751. -/
noncomputable def generateDateAttributeCode (methodIdentifier typeIdentifier : Str) : Str :=
  format [(c!"method_identifier", methodIdentifier), (c!"type_identifier", typeIdentifier)]
    c!"/// Add `{method_identifier}` date value to a packet.
pub fn add_{method_identifier}(packet: &mut Packet, value: &DateTime<Utc>) {{
    packet.add(AVP::from_date({type_identifier}, value));
}}
/// Lookup a `{method_identifier}` date value from a packet.
///
/// It returns the first looked up value. If there is no associated value with `{method_identifier}`, it returns `None`.
pub fn lookup_{method_identifier}(packet: &Packet) -> Option<Result<DateTime<Utc>, AVPError>> {{
    packet.lookup({type_identifier}).map(|v| v.encode_date())
}}
/// Lookup all of the `{method_identifier}` date value from a packet.
pub fn lookup_all_{method_identifier}(packet: &Packet) -> Result<Vec<DateTime<Utc>>, AVPError> {{
    let mut vec = Vec::new();
    for avp in packet.lookup_all({type_identifier}) {{
        vec.push(avp.encode_date()?)
    }}
    Ok(vec)
}}
" .text

/-- `generate_integer_attribute_code` — code-generator/src/main.rs:753-780. -/
noncomputable def generateIntegerAttributeCode (methodIdentifier typeIdentifier : Str) : Str :=
  format [(c!"method_identifier", methodIdentifier), (c!"type_identifier", typeIdentifier)]
    c!"/// Add `{method_identifier}` integer value to a packet.
pub fn add_{method_identifier}(packet: &mut Packet, value: u32) {{
    packet.add(AVP::from_u32({type_identifier}, value));
}}
/// Lookup a `{method_identifier}` integer value from a packet.
///
/// It returns the first looked up value. If there is no associated value with `{method_identifier}`, it returns `None`.
pub fn lookup_{method_identifier}(packet: &Packet) -> Option<Result<u32, AVPError>> {{
    packet.lookup({type_identifier}).map(|v| v.encode_u32())
}}
/// Lookup all of the `{method_identifier}` integer value from a packet.
pub fn lookup_all_{method_identifier}(packet: &Packet) -> Result<Vec<u32>, AVPError> {{
    let mut vec = Vec::new();
    for avp in packet.lookup_all({type_identifier}) {{
        vec.push(avp.encode_u32()?)
    }}
    Ok(vec)
}}
" .text

/-- `generate_tagged_integer_attribute_code` — code-generator/src/main.rs:782-809. -/
noncomputable def generateTaggedIntegerAttributeCode (methodIdentifier typeIdentifier : Str) : Str :=
  format [(c!"method_identifier", methodIdentifier), (c!"type_identifier", typeIdentifier)]
    c!"/// Add `{method_identifier}` tagged integer value to a packet.
pub fn add_{method_identifier}(packet: &mut Packet, tag: Option<&Tag>, value: u32) {{
    packet.add(AVP::from_tagged_u32({type_identifier}, tag, value));
}}
/// Lookup a `{method_identifier}` tagged integer value from a packet.
///
/// It returns the first looked up value. If there is no associated value with `{method_identifier}`, it returns `None`.
pub fn lookup_{method_identifier}(packet: &Packet) -> Option<Result<(u32, Tag), AVPError>> {{
    packet.lookup({type_identifier}).map(|v| v.encode_tagged_u32())
}}
/// Lookup all of the `{method_identifier}` tagged integer value from a packet.
pub fn lookup_all_{method_identifier}(packet: &Packet) -> Result<Vec<(u32, Tag)>, AVPError> {{
    let mut vec = Vec::new();
    for avp in packet.lookup_all({type_identifier}) {{
        vec.push(avp.encode_tagged_u32()?)
    }}
    Ok(vec)
}}
" .text

/-- `generate_value_defined_integer_attribute_code` — code-generator/src/main.rs:811-839. -/
noncomputable def generateValueDefinedIntegerAttributeCode (methodIdentifier typeIdentifier valueType : Str) : Str :=
  format [(c!"method_identifier", methodIdentifier), (c!"type_identifier", typeIdentifier),
    (c!"value_type", valueType)]
    c!"/// Add `{method_identifier}` value-defined integer value to a packet.
pub fn add_{method_identifier}(packet: &mut Packet, value: {value_type}) {{
    packet.add(AVP::from_u32({type_identifier}, value));
}}
/// Lookup a `{method_identifier}` value-defined integer value from a packet.
///
/// It returns the first looked up value. If there is no associated value with `{method_identifier}`, it returns `None`.
pub fn lookup_{method_identifier}(packet: &Packet) -> Option<Result<{value_type}, AVPError>> {{
    packet.lookup({type_identifier}).map(|v| Ok(v.encode_u32()? as {value_type}))
}}
/// Lookup all of the `{method_identifier}` value-defined integer value from a packet.
pub fn lookup_all_{method_identifier}(packet: &Packet) -> Result<Vec<{value_type}>, AVPError> {{
    let mut vec = Vec::new();
    for avp in packet.lookup_all({type_identifier}) {{
        vec.push(avp.encode_u32()? as {value_type})
    }}
    Ok(vec)
}}
" .text

/-- `generate_tagged_value_defined_integer_attribute_code` — code-generator/src/main.rs:841-873. -/
noncomputable def generateTaggedValueDefinedIntegerAttributeCode (methodIdentifier typeIdentifier valueType : Str) : Str :=
  format [(c!"method_identifier", methodIdentifier), (c!"type_identifier", typeIdentifier),
    (c!"value_type", valueType)]
    c!"/// Add `{method_identifier}` tagged value-defined integer value to a packet.
pub fn add_{method_identifier}(packet: &mut Packet, tag: Option<&Tag>, value: {value_type}) {{
    packet.add(AVP::from_tagged_u32({type_identifier}, tag, value));
}}
/// Lookup a `{method_identifier}` tagged value-defined integer value from a packet.
///
/// It returns the first looked up value. If there is no associated value with `{method_identifier}`, it returns `None`.
pub fn lookup_{method_identifier}(packet: &Packet) -> Option<Result<({value_type}, Tag), AVPError>> {{
    packet.lookup({type_identifier}).map(|v| {{
        let (v, t) = v.encode_tagged_u32()?;
        Ok((v as {value_type}, t))
    }})
}}
/// Lookup all of the `{method_identifier}` tagged value-defined integer value from a packet.
pub fn lookup_all_{method_identifier}(packet: &Packet) -> Result<Vec<({value_type}, Tag)>, AVPError> {{
    let mut vec = Vec::new();
    for avp in packet.lookup_all({type_identifier}) {{
        let (v, t) = avp.encode_tagged_u32()?;
        vec.push((v as {value_type}, t))
    }}
    Ok(vec)
}}
" .text

/-- `generate_short_attribute_code` — code-generator/src/main.rs:875-902. -/
noncomputable def generateShortAttributeCode (methodIdentifier typeIdentifier : Str) : Str :=
  format [(c!"method_identifier", methodIdentifier), (c!"type_identifier", typeIdentifier)]
    c!"/// Add `{method_identifier}` short integer value to a packet.
pub fn add_{method_identifier}(packet: &mut Packet, value: u16) {{
    packet.add(AVP::from_u16({type_identifier}, value));
}}
/// Lookup a `{method_identifier}` short integer value from a packet.
///
/// It returns the first looked up value. If there is no associated value with `{method_identifier}`, it returns `None`.
pub fn lookup_{method_identifier}(packet: &Packet) -> Option<Result<u16, AVPError>> {{
    packet.lookup({type_identifier}).map(|v| v.encode_u16())
}}
/// Lookup all of the `{method_identifier}` short integer value from a packet.
pub fn lookup_all_{method_identifier}(packet: &Packet) -> Result<Vec<u16>, AVPError> {{
    let mut vec = Vec::new();
    for avp in packet.lookup_all({type_identifier}) {{
        vec.push(avp.encode_u16()?)
    }}
    Ok(vec)
}}
" .text

/-- The accessors of one kind: the functions called by `generate_attribute_code` — code-generator/src/main.rs:399-906. -/
noncomputable def accessorCode (name methodIdentifier typeIdentifier : Str) : Kind → Str
  | .string => generateStringAttributeCode methodIdentifier typeIdentifier
  | .taggedString => generateTaggedStringAttributeCode methodIdentifier typeIdentifier
  | .userPassword => generateUserPasswordAttributeCode methodIdentifier typeIdentifier
  | .tunnelPassword => generateTunnelPasswordAttributeCode methodIdentifier typeIdentifier
  | .octets => generateOctetsAttributeCode methodIdentifier typeIdentifier
  | .concatOctets => generateConcatOctetsAttributeCode methodIdentifier typeIdentifier
  | .fixedOctets n => generateFixedLengthOctetsAttributeCode methodIdentifier typeIdentifier (digits n)
  | .ipv4 => generateIpaddrAttributeCode methodIdentifier typeIdentifier
  | .ipv4Prefix => generateIpv4PrefixAttributeCode methodIdentifier typeIdentifier
  | .ipv6 => generateIpv6addrAttributeCode methodIdentifier typeIdentifier
  | .ipv6Prefix => generateIpv6PrefixAttributeCode methodIdentifier typeIdentifier
  | .date => generateDateAttributeCode methodIdentifier typeIdentifier
  | .integer => generateIntegerAttributeCode methodIdentifier typeIdentifier
  | .taggedInteger => generateTaggedIntegerAttributeCode methodIdentifier typeIdentifier
  | .valueInteger => generateValueDefinedIntegerAttributeCode methodIdentifier typeIdentifier (toPascalCase name)
  | .taggedValueInteger =>
    generateTaggedValueDefinedIntegerAttributeCode methodIdentifier typeIdentifier (toPascalCase name)
  | .short => generateShortAttributeCode methodIdentifier typeIdentifier
  | .vsa => []

/-- The dispatch of `generate_attribute_code`; `unimplemented!` panics — code-generator/src/main.rs:276-375. -/
noncomputable def dispatch (attr : RadiusAttribute) (valueDefined : Bool) : Out Str Kind :=
  match attr.valueType with
  | .String => match attr.hasTag with
    | true => .ok .taggedString
    | false => .ok .string
  | .UserPassword => match attr.hasTag with
    | true => .panic
    | false => .ok .userPassword
  | .TunnelPassword => match attr.hasTag with
    | true => .ok .tunnelPassword
    | false => .panic
  | .Octets => match attr.hasTag with
    | true => .panic
    | false => match attr.fixedOctetsLength with
      | some n => .ok (.fixedOctets n)
      | none => match attr.concatOctets with
        | true => .ok .concatOctets
        | false => .ok .octets
  | .IpAddr => match attr.hasTag with
    | true => .panic
    | false => .ok .ipv4
  | .Ipv4Prefix => match attr.hasTag with
    | true => .panic
    | false => .ok .ipv4Prefix
  | .Ipv6Addr => match attr.hasTag with
    | true => .panic
    | false => .ok .ipv6
  | .Ipv6Prefix => match attr.hasTag with
    | true => .panic
    | false => .ok .ipv6Prefix
  | .IfId => match attr.hasTag with
    | true => .panic
    | false => .ok (.fixedOctets 8)
  | .Date => match attr.hasTag with
    | true => .panic
    | false => .ok .date
  | .Integer => match valueDefined with
    | true => match attr.hasTag with
      | true => .ok .taggedValueInteger
      | false => .ok .valueInteger
    | false => match attr.hasTag with
      | true => .ok .taggedInteger
      | false => .ok .integer
  | .Short => match attr.hasTag with
    | true => .panic
    | false => .ok .short
  | .VSA => .ok .vsa

/-- `value_defined_attributes_set.contains(name)`. -/
noncomputable def hasValues (values : ValueMap) (name : Str) : Bool := values.any (fun e => strEq e.1 name)

/-- `generate_attribute_code` — code-generator/src/main.rs:266-376. -/
noncomputable def generateAttributeCode (attr : RadiusAttribute) (values : ValueMap) : Out Str Str :=
  let typeIdentifier := toScreamingSnakeCase attr.name ++ c!"_TYPE"
  let methodIdentifier := toSnakeCase attr.name
  let common := generateCommonAttributeCode methodIdentifier typeIdentifier (digits attr.typ.toNat)
  match dispatch attr (hasValues values attr.name) with
  | .ok kind => .ok (common ++ accessorCode attr.name methodIdentifier typeIdentifier kind)
  | .err e => .err e
  | .panic => .panic

/-- `generate_attributes_code` — code-generator/src/main.rs:256-264. -/
noncomputable def generateAttributesCode (values : ValueMap) : List RadiusAttribute → Out Str Str
  | [] => .ok []
  | attr :: rest =>
    match generateAttributeCode attr values with
    | .ok code =>
      match generateAttributesCode values rest with
      | .ok more => .ok (code ++ more)
      | .err e => .err e
      | .panic => .panic
    | .err e => .err e
    | .panic => .panic

/-- `HashMap<String, String>` from attribute names to the dictionaries that define them, latest entry first. -/
abbrev NameMap := List (Str × Str)

/-- `HashMap::get`. -/
noncomputable def NameMap.get (name : Str) : NameMap → Option Str
  | [] => none
  | (k, v) :: rest => bif strEq k name then some v else NameMap.get name rest

/-- One constant of `generate_values_for_attribute_code` — code-generator/src/main.rs:226-251. -/
noncomputable def valueCode (typeName : Str) (rfcName : Option Str) (v : RadiusValue) : Str :=
  match rfcName with
  | some rfc => format [(c!"type_name_prefix", toScreamingSnakeCase typeName), (c!"value_name", toScreamingSnakeCase v.name),
      (c!"rfc_name", rfc), (c!"type_name", typeName), (c!"value", digits v.value.toNat)]
    c!"pub const {type_name_prefix}_{value_name}: {rfc_name}::{type_name} = {value};\n" .text
  | none => format [(c!"type_name_prefix", toScreamingSnakeCase typeName), (c!"value_name", toScreamingSnakeCase v.name),
      (c!"type_name", typeName), (c!"value", digits v.value.toNat)]
    c!"pub const {type_name_prefix}_{value_name}: {type_name} = {value};\n" .text

/-- `generate_values_for_attribute_code` — code-generator/src/main.rs:212-254. -/
noncomputable def generateValuesForAttributeCode (attr : Str) (values : List RadiusValue) (rfcName : Option Str) : Str :=
  let typeName := toPascalCase attr
  (match rfcName with
    | none => format [(c!"type_name", typeName), (c!"RADIUS_VALUE_TYPE", RADIUS_VALUE_TYPE)]
        c!"\npub type {type_name} = {RADIUS_VALUE_TYPE};\n" .text
    | some _ => []) ++
  values.flatMap (valueCode typeName rfcName) ++ c!"\n"

/-- `generate_values_code` — code-generator/src/main.rs:202-210. -/
noncomputable def generateValuesCode (values : ValueMap) (names : NameMap) : Str :=
  values.flatMap (fun e => generateValuesForAttributeCode e.1 e.2 (names.get e.1))

/-- `lines.map(|line| format!("//! {}", line)).collect().join("\n")`. -/
noncomputable def docLines : List Str → Str
  | [] => []
  | [l] => c!"//! " ++ l
  | l :: ls => c!"//! " ++ l ++ c!"\n" ++ docLines ls

/-- `generate_header` — code-generator/src/main.rs:162-200. -/
noncomputable def generateHeader (rfcNames : List Str) (rfcName : Str) (lines : List Str) : Str :=
  format [(c!"rfc_name", rfcName), (c!"dict_file_contents", docLines lines)]
    c!"// Code generated by machine generator; DO NOT EDIT.

//! Utility for {rfc_name} packet.
//!
//! This module handles the packet according to the following definition:
//! ```text
//! {dict_file_contents}
//! ```

use std::net::{{Ipv4Addr, Ipv6Addr}};

use chrono::{{DateTime, Utc}};

use crate::core::avp::{{AVP, AVPType, AVPError}};
use crate::core::packet::Packet;
use crate::core::tag::Tag;

" .text ++
  rfcNames.flatMap (fun n => c!"use crate::core::" ++ n ++ c!";\n")

/-- The state of `main` between two dictionaries — code-generator/src/main.rs:131-132. -/
structure MainState where
  rfcNames : List Str := []
  names : NameMap := []

/-- A dictionary file: the extension of its path and its text. -/
structure DictFile where
  rfcName : Str
  text : Str

/-- One iteration of `main`: the text of the module and the next state — code-generator/src/main.rs:134-159. -/
noncomputable def generateFile (nd : Nat → Bool) (s : MainState) (f : DictFile) : Out Str (Str × MainState) :=
  match parseDict nd f.text with
  | .ok d =>
    match generateAttributesCode d.values d.attributes with
    | .ok code =>
      .ok (generateHeader s.rfcNames f.rfcName (readLines f.text) ++ code ++ generateValuesCode d.values s.names,
        { rfcNames := s.rfcNames ++ [f.rfcName],
          names := (d.attributes.map (fun a => (a.name, f.rfcName))).reverse ++ s.names })
    | .err e => .err e
    | .panic => .panic
  | .err _ => .panic
  | .panic => .panic

/-- `main`: the texts of the modules, one for each dictionary — code-generator/src/main.rs:131-160. -/
noncomputable def generateFiles (nd : Nat → Bool) (s : MainState) : List DictFile → Out Str (List Str)
  | [] => .ok []
  | f :: fs =>
    match generateFile nd s f with
    | .ok (text, s') =>
      match generateFiles nd s' fs with
      | .ok texts => .ok (text :: texts)
      | .err e => .err e
      | .panic => .panic
    | .err e => .err e
    | .panic => .panic

end Radius.Gen
