/-
The repository's own unit tests, run on the model: pkg/types/100, pkg/types/040, pkg/types/020. Checks of the model, not properties.
-/
import Verif.Conformance.Types

namespace Verif.Conformance

/-- Gomega's `MatchJSON`: the same document up to white space and the order of members. Observation in tests; models no code. -/
def matchJSON (a b : Bytes) : Bool :=
  match (Json.parse a).bind Json.toAny, (Json.parse b).bind Json.toAny with
  | some x, some y => decide (x = y)
  | _, _ => false

/-- Test data; models no code. -/
def dnsText : Bytes := b!"
    \"dns\": {
        \"nameservers\": [
            \"1.2.3.4\",
            \"1::cafe\"
        ],
        \"domain\": \"acompany.com\",
        \"search\": [
            \"somedomain.com\",
            \"otherdomain.net\"
        ],
        \"options\": [
            \"foo\",
            \"bar\"
        ]
    }
}"

/-- Test data; models no code. -/
def routesText : Bytes := b!"
    \"routes\": [
        {
            \"dst\": \"15.5.6.0/24\",
            \"gw\": \"15.5.6.8\"
        },
        {
            \"dst\": \"1111:dddd::/80\",
            \"gw\": \"1111:dddd::aaaa\"
        }
    ],"

/-- Test data; models no code. -/
def text110 : Bytes := b!"{
    \"cniVersion\": \"1.1.0\",
    \"interfaces\": [
        {
            \"name\":        \"eth0\",
            \"mac\":         \"00:11:22:33:44:55\",
            \"mtu\": 1500,
            \"sandbox\":     \"/proc/3553/ns/net\",
            \"pciID\": 	   \"8086:9a01\",
            \"socketPath\":  \"/path/to/vhost/fd\"
        }
    ],
    \"ips\": [
        {
            \"interface\": 0,
            \"address\": \"1.2.3.30/24\",
            \"gateway\": \"1.2.3.1\"
        },
        {
            \"interface\": 0,
            \"address\": \"abcd:1234:ffff::cdde/64\",
            \"gateway\": \"abcd:1234:ffff::1\"
        }
    ]," ++ routesText ++ dnsText

/-- Test data; models no code. -/
def text04x (v : Bytes) : Bytes := b!"{
    \"cniVersion\": \"" ++ v ++ b!"\",
    \"interfaces\": [
        {
            \"name\": \"eth0\",
            \"mac\": \"00:11:22:33:44:55\",
            \"sandbox\": \"/proc/3553/ns/net\"
        }
    ],
    \"ips\": [
        {
            \"version\": \"4\",
            \"interface\": 0,
            \"address\": \"1.2.3.30/24\",
            \"gateway\": \"1.2.3.1\"
        },
        {
            \"version\": \"6\",
            \"interface\": 0,
            \"address\": \"abcd:1234:ffff::cdde/64\",
            \"gateway\": \"abcd:1234:ffff::1\"
        }
    ]," ++ routesText ++ dnsText

/-- Test data; models no code. -/
def text02x (v : Bytes) : Bytes := b!"{
    \"cniVersion\": \"" ++ v ++ b!"\",
    \"ip4\": {
        \"ip\": \"1.2.3.30/24\",
        \"gateway\": \"1.2.3.1\",
        \"routes\": [
            {
                \"dst\": \"15.5.6.0/24\",
                \"gw\": \"15.5.6.8\"
            }
        ]
    },
    \"ip6\": {
        \"ip\": \"abcd:1234:ffff::cdde/64\",
        \"gateway\": \"abcd:1234:ffff::1\",
        \"routes\": [
            {
                \"dst\": \"1111:dddd::/80\",
                \"gw\": \"1111:dddd::aaaa\"
            }
        ]
    }," ++ dnsText

/-- What `net.ParseCIDR("15.5.6.8/24")` gives: the masked network, with a 4-byte address, and the address. Test data; models no code. -/
def route4 : Route := { dst := ⟨[15, 5, 6, 0], [255, 255, 255, 0]⟩, gw := v4 15 5 6 8 }
/-- Test data; models no code. -/
def m80 : Bytes := [255, 255, 255, 255, 255, 255, 255, 255, 255, 255, 0, 0, 0, 0, 0, 0]
/-- What `net.ParseCIDR("1111:dddd::aaaa/80")` gives. Test data; models no code. -/
def route6 : Route :=
  { dst := ⟨[0x11, 0x11, 0xdd, 0xdd, 0, 0, 0, 0, 0, 0, 0, 0, 0, 0, 0, 0], m80⟩,
    gw := [0x11, 0x11, 0xdd, 0xdd, 0, 0, 0, 0, 0, 0, 0, 0, 0, 0, 0xaa, 0xaa] }

/-- Test data; models no code. -/
def res110 : R100 :=
  { testResult100 with cniVersion := b!"1.1.0", interfaces := [some { eth100 with mtu := 1500 }], routes := [some route4, some route6] }

/-- Test data; models no code. -/
def ips040 : List (Option Ip040) :=
  [some { version := b!"4", interface := some 0, address := ⟨v4 1 2 3 30, [255, 255, 255, 0]⟩, gateway := v4 1 2 3 1 },
   some { version := b!"6", interface := some 0, address := ⟨v6a, m64⟩, gateway := v6g }]
/-- Test data; models no code. -/
def eth040 : Intf040 := { name := b!"eth0", mac := b!"00:11:22:33:44:55", sandbox := b!"/proc/3553/ns/net" }
/-- Test data; models no code. -/
def res031 : R040 := { cniVersion := b!"0.3.1", interfaces := [some eth040], ips := ips040, routes := [some route4, some route6], dns := testDns }

/-- Test data; models no code. -/
def res02x (v : Bytes) : R020 :=
  { cniVersion := v, ip4 := some { ip := ⟨v4 1 2 3 30, [255, 255, 255, 0]⟩, gateway := v4 1 2 3 1, routes := [route4] },
    ip6 := some { ip := ⟨v6a, m64⟩, gateway := v6g, routes := [route6] }, dns := testDns }

/-- What `Print` writes for a result converted to a version, compared with the expected text. Observation in tests; models no code. -/
def printsAs (r : Result) (v want : Bytes) : Bool :=
  match printResult r v with
  | .ok out => matchJSON out want
  | _ => false

/-! ### pkg/types/100/types_test.go -/

-- correctly encodes a 1.1.0 Result
example : ((Result.v100 res110).printTo.map fun out => matchJSON out text110) = some true := by decide +kernel
-- correctly converts a 1.0.0 Result to 1.1.0
example : ((Result.v100 res110).getAsVersion b!"1.0.0").toOption = some (.v100 { res110 with cniVersion := b!"1.0.0" }) := by decide +kernel
example : (((Result.v100 res110).getAsVersion b!"1.0.0").bind (Result.getAsVersion · b!"1.1.0")).toOption = some (.v100 res110) := by decide +kernel
-- correctly encodes a 0.1.0 Result, a 0.4.0 Result
example : printsAs (.v100 res110) b!"0.1.0" (text02x b!"0.1.0") = true := by decide +kernel
example : printsAs (.v100 res110) b!"0.4.0" (text04x b!"0.4.0") = true := by decide +kernel
-- the comparison is not vacuous
example : printsAs (.v100 res110) b!"0.4.0" (text04x b!"0.3.1") = false := by decide +kernel

/-- Test data; models no code. -/
def ipc : Ip100 := { interface := some 0, address := ⟨v4 10 1 2 3, [255, 255, 255, 0]⟩ }

-- correctly marshals and unmarshals interface index 0; a missing interface index; fails on a bad address
example : matchJSON (jIp100 ipc).print b!"{
    \"interface\": 0,
    \"address\": \"10.1.2.3/24\"
}" = true := by decide +kernel
example : (Json.parse (jIp100 ipc).print).bind decIp100 = some ipc := by decide +kernel
example : (Json.parse b!"{\"address\": 5}").bind decIp100 = none := by decide +kernel
example : matchJSON (jIp100 { ipc with interface := none }).print b!"{
    \"address\": \"10.1.2.3/24\"
}" = true := by decide +kernel

/-! ### pkg/types/040/types_test.go -/

example : ((Result.v040 res031).printTo.map fun out => matchJSON out (text04x b!"0.3.1")) = some true := by decide +kernel
example : printsAs (.v040 res031) b!"0.1.0" (text02x b!"0.1.0") = true := by decide +kernel

/-- The 0.2.0 round trip through 0.4.0, compared as JSON. Observation in tests; models no code. -/
def roundTrips (r : R020) : Bool :=
  match newResultFromResult040 (.v020 r) with
  | .ok n =>
    match (Result.v040 n).getAsVersion b!"0.2.0" with
    | .ok o =>
      match o.json, (Result.v020 r).json with
      | some a, some b => matchJSON a.print b.print
      | _, _ => false
    | _ => false
  | _ => false

example : roundTrips (res02x b!"0.2.0") = true := by decide +kernel
/-- The result without route gateways. Test data; models no code. -/
def res020ng : R020 :=
  { res02x b!"0.2.0" with ip4 := (res02x b!"0.2.0").ip4.map (fun i => { i with routes := [{ route4 with gw := [] }] }),
                          ip6 := (res02x b!"0.2.0").ip6.map (fun i => { i with routes := [{ route6 with gw := [] }] }) }
example : roundTrips res020ng = true := by decide +kernel

-- fails when downconverting a config to 0.2.0 that has no IPs
example : errMsg ((Result.v040 { res031 with ips := [], routes := [] }).getAsVersion b!"0.2.0") = some b!"cannot convert: no valid IP addresses" := by
  decide +kernel

/-- Test data; models no code. -/
def ipc040 : Ip040 := { version := b!"4", interface := some 0, address := ⟨v4 10 1 2 3, [255, 255, 255, 0]⟩ }
example : matchJSON (jIp040 ipc040).print b!"{
    \"version\": \"4\",
    \"interface\": 0,
    \"address\": \"10.1.2.3/24\"
}" = true := by decide +kernel
example : (Json.parse (jIp040 ipc040).print).bind decIp040 = some ipc040 := by decide +kernel
example : (Json.parse b!"{\"address\": 5}").bind decIp040 = none := by decide +kernel
example : matchJSON (jIp040 { ipc040 with interface := none }).print b!"{
    \"version\": \"4\",
    \"address\": \"10.1.2.3/24\"
}" = true := by decide +kernel

/-! ### pkg/types/020/types_test.go -/

example : ((Result.v020 (res02x b!"0.2.0")).json.map fun j => matchJSON j.print (text02x b!"0.2.0")) = some true := by decide +kernel
example : ((Result.v020 (res02x b!"0.1.0")).json.map fun j => matchJSON j.print (text02x b!"0.1.0")) = some true := by decide +kernel
example : printsAs (.v020 (res02x b!"0.2.0")) b!"0.1.0" (text02x b!"0.1.0") = true := by decide +kernel
example : printsAs (.v020 (res02x b!"0.1.0")) b!"0.2.0" (text02x b!"0.2.0") = true := by decide +kernel
-- creates a 0.1.0 result passing CNIVersion ''
example : (create [] (text02x [])).toOption.map (fun r => (r.version, match r with | .v020 x => x.cniVersion | _ => [])) =
    some (b!"0.1.0", b!"0.1.0") := by decide +kernel

end Verif.Conformance
