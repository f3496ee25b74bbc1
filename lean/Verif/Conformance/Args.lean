import Verif.Argparse
import Verif.Concrete.Ecdsa

/-!
# Command lines and what Python's `argparse` makes of them

Generated by `tools/argvectors.py` (Python 3.11.10): do not edit.  Tests, not proofs.
-/

set_option linter.all false
set_option maxRecDepth 100000

namespace BT.Conformance

open BT.Concrete

deriving instance DecidableEq for RawArgs
deriving instance DecidableEq for Namespace
deriving instance DecidableEq for Parsed

/-- the model agrees with a recorded result -/
def argsAgree (l : List (List Str × Parsed)) : Bool := l.all fun p => decide (parseArgs uniSample p.1 = p.2)

example : argsAgree [
  ([], .ok {}),
  ([py"a"], .usage),
  ([py"k1"], .usage),
  ([py"x y"], .usage),
  ([py""], .usage),
  ([py"-"], .usage),
  ([py"--"], .usage),
  ([py"-5"], .usage),
  ([py"-1.5"], .usage),
  ([py"-.5"], .usage),
  ([py"-5\n"], .usage),
  ([py"-5."], .usage),
  ([py"-q"], .usage),
  ([py"-a b"], .usage),
  ([py"- z"], .usage),
  ([py"="], .usage),
  ([py"a=b"], .usage),
  ([py"-="], .usage),
  ([py"--=a"], .usage),
  ([py"info"], .usage),
  ([py"error"], .usage),
  ([py"get_address"], .usage),
  ([py"-d"], .ok { debug := true }),
  ([py"-s"], .ok { logTimestamp := true }),
  ([py"-x"], .ok { logToFile := true }),
  ([py"-h"], .help),
  ([py"-ds"], .ok { debug := true, logTimestamp := true }),
  ([py"-dsx"], .ok { debug := true, logTimestamp := true, logToFile := true }),
  ([py"-dq"], .usage),
  ([py"-dt"], .usage),
  ([py"-dtfoo"], .ok { task := py"foo", debug := true }),
  ([py"-dt=foo"], .ok { task := py"foo", debug := true }),
  ([py"-dh"], .help),
  ([py"-d="], .usage),
  ([py"-d=s"], .usage),
  ([py"-ds="], .usage),
  ([py"-ds=1"], .usage),
  ([py"-d-s"], .usage),
  ([py"-tfoo"], .ok { task := py"foo" }),
  ([py"-t=foo"], .ok { task := py"foo" }),
  ([py"-t"], .usage),
  ([py"-linfo"], .ok { logLevel := py"info" }),
  ([py"-l"], .usage),
  ([py"-lx"], .usage),
  ([py"-zq"], .ok { logFile := py"q" }),
  ([py"-zq r"], .ok { logFile := py"q r" }),
  ([py"-hq"], .help),
  ([py"-dl"], .usage),
  ([py"--unknown"], .usage),
  ([py"--unknown=1"], .usage),
  ([py"--task x"], .usage),
  ([py"-d e"], .usage),
  ([py"--data", py"a"], .ok { data := (some py"a") }),
  ([py"--data", py"k1"], .ok { data := (some py"k1") }),
  ([py"--data", py"x y"], .ok { data := (some py"x y") }),
  ([py"--data", py""], .ok { data := (some py"") }),
  ([py"--data", py"-"], .ok { data := (some py"-") }),
  ([py"--data", py"--"], .usage),
  ([py"--data", py"-5"], .ok { data := (some py"-5") }),
  ([py"--data", py"-1.5"], .ok { data := (some py"-1.5") })] = true := by decide +kernel

example : argsAgree [
  ([py"--data", py"-.5"], .ok { data := (some py"-.5") }),
  ([py"--data", py"-5\n"], .ok { data := (some py"-5\n") }),
  ([py"--data", py"-5."], .usage),
  ([py"--data", py"-q"], .usage),
  ([py"--data", py"-a b"], .ok { data := (some py"-a b") }),
  ([py"--data", py"- z"], .ok { data := (some py"- z") }),
  ([py"--data", py"="], .ok { data := (some py"=") }),
  ([py"--data", py"a=b"], .ok { data := (some py"a=b") }),
  ([py"--data", py"-="], .usage),
  ([py"--data", py"--=a"], .usage),
  ([py"--data", py"info"], .ok { data := (some py"info") }),
  ([py"--data", py"error"], .ok { data := (some py"error") }),
  ([py"--data", py"get_address"], .ok { data := (some py"get_address") }),
  ([py"--data", py"-d"], .usage),
  ([py"--data", py"-s"], .usage),
  ([py"--data", py"-x"], .usage),
  ([py"--data", py"-h"], .usage),
  ([py"--data", py"-ds"], .usage),
  ([py"--data", py"-dsx"], .usage),
  ([py"--data", py"-dq"], .usage),
  ([py"--data", py"-dt"], .usage),
  ([py"--data", py"-dtfoo"], .usage),
  ([py"--data", py"-dt=foo"], .usage),
  ([py"--data", py"-dh"], .usage),
  ([py"--data", py"-d="], .usage),
  ([py"--data", py"-d=s"], .usage),
  ([py"--data", py"-ds="], .usage),
  ([py"--data", py"-ds=1"], .usage),
  ([py"--data", py"-d-s"], .usage),
  ([py"--data", py"-tfoo"], .usage),
  ([py"--data", py"-t=foo"], .usage),
  ([py"--data", py"-t"], .usage),
  ([py"--data", py"-linfo"], .usage),
  ([py"--data", py"-l"], .usage),
  ([py"--data", py"-lx"], .usage),
  ([py"--data", py"-zq"], .usage),
  ([py"--data", py"-zq r"], .usage),
  ([py"--data", py"-hq"], .usage),
  ([py"--data", py"-dl"], .usage),
  ([py"--data", py"--unknown"], .usage),
  ([py"--data", py"--unknown=1"], .usage),
  ([py"--data", py"--task x"], .ok { data := (some py"--task x") }),
  ([py"--data", py"-d e"], .usage),
  ([py"--private-key-hex", py"a", py"a"], .ok { privateKeyHex := [[py"a", py"a"]] }),
  ([py"--private-key-hex", py"a", py"k1"], .ok { privateKeyHex := [[py"a", py"k1"]] }),
  ([py"--private-key-hex", py"a", py"x y"], .ok { privateKeyHex := [[py"a", py"x y"]] }),
  ([py"--private-key-hex", py"a", py""], .ok { privateKeyHex := [[py"a", py""]] }),
  ([py"--private-key-hex", py"a", py"-"], .ok { privateKeyHex := [[py"a", py"-"]] }),
  ([py"--private-key-hex", py"a", py"--"], .usage),
  ([py"--private-key-hex", py"a", py"-5"], .ok { privateKeyHex := [[py"a", py"-5"]] }),
  ([py"--private-key-hex", py"a", py"-1.5"], .ok { privateKeyHex := [[py"a", py"-1.5"]] }),
  ([py"--private-key-hex", py"a", py"-.5"], .ok { privateKeyHex := [[py"a", py"-.5"]] }),
  ([py"--private-key-hex", py"a", py"-5\n"], .ok { privateKeyHex := [[py"a", py"-5\n"]] }),
  ([py"--private-key-hex", py"a", py"-5."], .usage),
  ([py"--private-key-hex", py"a", py"-q"], .usage),
  ([py"--private-key-hex", py"a", py"-a b"], .ok { privateKeyHex := [[py"a", py"-a b"]] }),
  ([py"--private-key-hex", py"a", py"- z"], .ok { privateKeyHex := [[py"a", py"- z"]] }),
  ([py"--private-key-hex", py"a", py"="], .ok { privateKeyHex := [[py"a", py"="]] }),
  ([py"--private-key-hex", py"a", py"a=b"], .ok { privateKeyHex := [[py"a", py"a=b"]] }),
  ([py"--private-key-hex", py"a", py"-="], .usage)] = true := by decide +kernel

example : argsAgree [
  ([py"--private-key-hex", py"a", py"--=a"], .usage),
  ([py"--private-key-hex", py"a", py"info"], .ok { privateKeyHex := [[py"a", py"info"]] }),
  ([py"--private-key-hex", py"a", py"error"], .ok { privateKeyHex := [[py"a", py"error"]] }),
  ([py"--private-key-hex", py"a", py"get_address"], .ok { privateKeyHex := [[py"a", py"get_address"]] }),
  ([py"--private-key-hex", py"a", py"-d"], .ok { privateKeyHex := [[py"a"]], debug := true }),
  ([py"--private-key-hex", py"a", py"-s"], .ok { privateKeyHex := [[py"a"]], logTimestamp := true }),
  ([py"--private-key-hex", py"a", py"-x"], .ok { privateKeyHex := [[py"a"]], logToFile := true }),
  ([py"--private-key-hex", py"a", py"-h"], .help),
  ([py"--private-key-hex", py"a", py"-ds"], .ok { privateKeyHex := [[py"a"]], debug := true, logTimestamp := true }),
  ([py"--private-key-hex", py"a", py"-dsx"], .ok { privateKeyHex := [[py"a"]], debug := true, logTimestamp := true, logToFile := true }),
  ([py"--private-key-hex", py"a", py"-dq"], .usage),
  ([py"--private-key-hex", py"a", py"-dt"], .usage),
  ([py"--private-key-hex", py"a", py"-dtfoo"], .ok { task := py"foo", privateKeyHex := [[py"a"]], debug := true }),
  ([py"--private-key-hex", py"a", py"-dt=foo"], .ok { task := py"foo", privateKeyHex := [[py"a"]], debug := true }),
  ([py"--private-key-hex", py"a", py"-dh"], .help),
  ([py"--private-key-hex", py"a", py"-d="], .usage),
  ([py"--private-key-hex", py"a", py"-d=s"], .usage),
  ([py"--private-key-hex", py"a", py"-ds="], .usage),
  ([py"--private-key-hex", py"a", py"-ds=1"], .usage),
  ([py"--private-key-hex", py"a", py"-d-s"], .usage),
  ([py"--private-key-hex", py"a", py"-tfoo"], .ok { task := py"foo", privateKeyHex := [[py"a"]] }),
  ([py"--private-key-hex", py"a", py"-t=foo"], .ok { task := py"foo", privateKeyHex := [[py"a"]] }),
  ([py"--private-key-hex", py"a", py"-t"], .usage),
  ([py"--private-key-hex", py"a", py"-linfo"], .ok { privateKeyHex := [[py"a"]], logLevel := py"info" }),
  ([py"--private-key-hex", py"a", py"-l"], .usage),
  ([py"--private-key-hex", py"a", py"-lx"], .usage),
  ([py"--private-key-hex", py"a", py"-zq"], .ok { privateKeyHex := [[py"a"]], logFile := py"q" }),
  ([py"--private-key-hex", py"a", py"-zq r"], .ok { privateKeyHex := [[py"a"]], logFile := py"q r" }),
  ([py"--private-key-hex", py"a", py"-hq"], .help),
  ([py"--private-key-hex", py"a", py"-dl"], .usage),
  ([py"--private-key-hex", py"a", py"--unknown"], .usage),
  ([py"--private-key-hex", py"a", py"--unknown=1"], .usage),
  ([py"--private-key-hex", py"a", py"--task x"], .ok { privateKeyHex := [[py"a", py"--task x"]] }),
  ([py"--private-key-hex", py"a", py"-d e"], .usage),
  ([py"--help"], .help),
  ([py"--help", py"a"], .help),
  ([py"--help", py"info"], .help),
  ([py"--help=info"], .usage),
  ([py"--hel", py"info"], .help),
  ([py"--hel", py"a"], .help),
  ([py"--task"], .usage),
  ([py"--task", py"a"], .ok { task := py"a" }),
  ([py"--task", py"info"], .ok { task := py"info" }),
  ([py"--task=info"], .ok { task := py"info" }),
  ([py"--tas", py"info"], .ok { task := py"info" }),
  ([py"--tas", py"a"], .ok { task := py"a" }),
  ([py"--private-key-hex"], .usage),
  ([py"--private-key-hex", py"a"], .ok { privateKeyHex := [[py"a"]] }),
  ([py"--private-key-hex", py"info"], .ok { privateKeyHex := [[py"info"]] }),
  ([py"--private-key-hex=info"], .ok { privateKeyHex := [[py"info"]] }),
  ([py"--private-key-he", py"info"], .ok { privateKeyHex := [[py"info"]] }),
  ([py"--pri", py"a"], .usage),
  ([py"--private-key-file"], .usage),
  ([py"--private-key-file", py"a"], .ok { privateKeyFile := [[py"a"]] }),
  ([py"--private-key-file", py"info"], .ok { privateKeyFile := [[py"info"]] }),
  ([py"--private-key-file=info"], .ok { privateKeyFile := [[py"info"]] }),
  ([py"--private-key-fil", py"info"], .ok { privateKeyFile := [[py"info"]] }),
  ([py"--private-key-dir"], .usage),
  ([py"--private-key-dir", py"a"], .ok { privateKeyDir := (some py"a") }),
  ([py"--private-key-dir", py"info"], .ok { privateKeyDir := (some py"info") })] = true := by decide +kernel

example : argsAgree [
  ([py"--private-key-dir=info"], .ok { privateKeyDir := (some py"info") }),
  ([py"--private-key-di", py"info"], .ok { privateKeyDir := (some py"info") }),
  ([py"--private-key-wif"], .usage),
  ([py"--private-key-wif", py"a"], .ok { privateKeyWif := (some py"a") }),
  ([py"--private-key-wif", py"info"], .ok { privateKeyWif := (some py"info") }),
  ([py"--private-key-wif=info"], .ok { privateKeyWif := (some py"info") }),
  ([py"--private-key-wi", py"info"], .ok { privateKeyWif := (some py"info") }),
  ([py"--public-key-hex"], .usage),
  ([py"--public-key-hex", py"a"], .ok { publicKeyHex := (some py"a") }),
  ([py"--public-key-hex", py"info"], .ok { publicKeyHex := (some py"info") }),
  ([py"--public-key-hex=info"], .ok { publicKeyHex := (some py"info") }),
  ([py"--public-key-he", py"info"], .ok { publicKeyHex := (some py"info") }),
  ([py"--pub", py"a"], .ok { publicKeyHex := (some py"a") }),
  ([py"--signature-hex"], .usage),
  ([py"--signature-hex", py"a"], .ok { signatureHex := (some py"a") }),
  ([py"--signature-hex", py"info"], .ok { signatureHex := (some py"info") }),
  ([py"--signature-hex=info"], .ok { signatureHex := (some py"info") }),
  ([py"--signature-he", py"info"], .ok { signatureHex := (some py"info") }),
  ([py"--sig", py"a"], .ok { signatureHex := (some py"a") }),
  ([py"--data"], .usage),
  ([py"--data=info"], .ok { data := (some py"info") }),
  ([py"--dat", py"info"], .usage),
  ([py"--dat", py"a"], .usage),
  ([py"--data-file"], .usage),
  ([py"--data-file", py"a"], .ok { dataFile := (some py"a") }),
  ([py"--data-file", py"info"], .ok { dataFile := (some py"info") }),
  ([py"--data-file=info"], .ok { dataFile := (some py"info") }),
  ([py"--data-fil", py"info"], .ok { dataFile := (some py"info") }),
  ([py"--input-file"], .usage),
  ([py"--input-file", py"a"], .ok { inputFile := (some py"a") }),
  ([py"--input-file", py"info"], .ok { inputFile := (some py"info") }),
  ([py"--input-file=info"], .ok { inputFile := (some py"info") }),
  ([py"--input-fil", py"info"], .ok { inputFile := (some py"info") }),
  ([py"--inp", py"a"], .ok { inputFile := (some py"a") }),
  ([py"--design-file"], .usage),
  ([py"--design-file", py"a"], .ok { designFile := (some py"a") }),
  ([py"--design-file", py"info"], .ok { designFile := (some py"info") }),
  ([py"--design-file=info"], .ok { designFile := (some py"info") }),
  ([py"--design-fil", py"info"], .ok { designFile := (some py"info") }),
  ([py"--des", py"a"], .ok { designFile := (some py"a") }),
  ([py"--log-level"], .usage),
  ([py"--log-level", py"a"], .usage),
  ([py"--log-level", py"info"], .ok { logLevel := py"info" }),
  ([py"--log-level=info"], .ok { logLevel := py"info" }),
  ([py"--log-leve", py"info"], .ok { logLevel := py"info" }),
  ([py"--log", py"a"], .usage),
  ([py"--debug"], .ok { debug := true }),
  ([py"--debug", py"a"], .usage),
  ([py"--debug", py"info"], .usage),
  ([py"--debug=info"], .usage),
  ([py"--debu", py"info"], .usage),
  ([py"--deb", py"a"], .usage),
  ([py"--log-timestamp"], .ok { logTimestamp := true }),
  ([py"--log-timestamp", py"a"], .usage),
  ([py"--log-timestamp", py"info"], .usage),
  ([py"--log-timestamp=info"], .usage),
  ([py"--log-timestam", py"info"], .usage),
  ([py"--log-to-file"], .ok { logToFile := true }),
  ([py"--log-to-file", py"a"], .usage),
  ([py"--log-to-file", py"info"], .usage)] = true := by decide +kernel

example : argsAgree [
  ([py"--log-to-file=info"], .usage),
  ([py"--log-to-fil", py"info"], .usage),
  ([py"--log-file"], .usage),
  ([py"--log-file", py"a"], .ok { logFile := py"a" }),
  ([py"--log-file", py"info"], .ok { logFile := py"info" }),
  ([py"--log-file=info"], .ok { logFile := py"info" }),
  ([py"--log-fil", py"info"], .ok { logFile := py"info" }),
  ([py"--private-key-wif", py"--p", py"--private-key", py"k1"], .usage),
  ([py"--data-file", py"-zq", py"-zq", py"--log-to-file", py"info"], .usage),
  ([py"-dtfoo", py"-h"], .help),
  ([py"--input-fil", py"--input-file", py"b c", py"k2", py"a", py"--private-key-file", py"-5", py"-dt=foo"], .usage),
  ([py"k1", py"--log-file=-d=", py"--=a", py"--public-key-=-d-s"], .usage),
  ([py"--l=-1.5", py"--d=-dl"], .usage),
  ([py"k1", py"--private-key-hex", py"k1", py"--he=-linfo", py"--log-file", py"info", py"--log-timestamp=-q"], .usage),
  ([py"--private-key-wif", py"--private-key-dir"], .usage),
  ([py"--task", py"info", py"k1", py"--unknown", py"--=-=", py"--"], .usage),
  ([py"k1", py"--design-file=-=", py"--"], .usage),
  ([py"--log-to-file", py"k1", py"k1", py"--design-file", py"info", py"-h"], .help),
  ([py"--input-file", py"b c", py"--private-key-wif", py"a"], .ok { privateKeyWif := (some py"a"), inputFile := (some py"b c") }),
  ([py"-5\n", py"a", py"--data", py"--input-file", py"k1", py"--public-key-hex", py"a", py"--help", py"a"], .usage),
  ([py"--help", py"k1", py"--private-", py"a", py"--log-to-file", py"info", py"--log-file"], .usage),
  ([py"--signature-hex", py"info", py"--", py"--log-to-file", py"--log-timestamp", py"a", py"--help", py"a", py"a"], .usage),
  ([py"--public-key-hex", py"a", py"--private-key-wif", py"a", py"--private-key-file", py"a", py"--public-key-hex", py"k1", py"--log-to-file", py"-5"], .usage),
  ([py"-dt", py"--log-timestamp=-t", py"a", py"--private-key-file=-dq", py"--private-key-file=-lx"], .usage),
  ([py"--task", py"--signature-hex", py"a", py"--task", py"b c", py"--log-level", py"info"], .usage),
  ([py"--private-key-dir", py"a", py"--log-timestamp", py"a", py"k1", py"a", py"--signature-hex=-5."], .usage),
  ([py"--data", py"a", py"k1", py"--task=--unknown", py"--design-file", py"k2"], .usage),
  ([py"--input-file=-dq", py"--log-le=-ds=", py"k1", py"--private-key-hex", py"info", py"--public-key-hex", py"k1"], .usage),
  ([py"--input-file", py"info", py"--data", py"-5", py"--log-level", py"a", py"--private-key-dir", py"k1", py"--private-key-di=-ds"], .usage),
  ([py"--private-ke=-x", py"--log-lev", py"--data", py"k1", py"k1", py"--log-timestamp", py"info"], .usage),
  ([py"--data-file", py"-5"], .ok { dataFile := (some py"-5") }),
  ([py"k1", py"k1", py"k2", py"--de"], .usage),
  ([py"--private-key-dir", py"info", py"--p", py"--in", py"--private-key-file", py"k1", py"--private-key-hex", py"a", py"--h"], .usage),
  ([py"--signat", py"-"], .ok { signatureHex := (some py"-") }),
  ([py"--help", py"--private-key-file", py"--signature-hex", py"k1", py"--data", py"b c", py"--private-ke"], .usage),
  ([py"a", py"--private-key-wif", py"k1", py"k1", py"--help=get_address", py"--task", py"a", py"--private-key-wif"], .usage),
  ([py"--public-key-hex=-.5", py"-1.5", py"--log-file", py"--private-key-hex", py"-5"], .usage),
  ([py"k2"], .usage),
  ([py"--debug=get_address"], .usage),
  ([py"--debu", py"--=-tfoo", py"-dh", py"--log-file", py"-5", py"k1"], .usage),
  ([py"--desig=-1.5", py"--design-f=--task x", py"--ta", py"--log-timestamp", py"-5", py"a"], .usage),
  ([py"--private-key-hex", py"b c", py"--private-key-dir", py"k1", py"--log-level=-dt"], .usage),
  ([py"--data", py"k1", py"--log-lev"], .usage),
  ([py"--log-leve", py"k2"], .usage),
  ([py"--des", py"--private-key-wif", py"a", py"--", py"--private"], .usage),
  ([py"--log-timestamp==", py"--log-to-file", py"a", py"-linfo", py"k2"], .usage),
  ([py"--task", py"-dt", py"--task", py"-5"], .usage),
  ([py"--log-timestamp", py"-5", py"--signature-hex", py"k2", py"--help=--=a"], .usage),
  ([py"--debug", py"--data"], .usage),
  ([py"--task", py"a", py"--private-key-dir", py"b c", py"a=b", py"--debug", py"k1", py"--private-key-wif", py"--public-key-h"], .usage),
  ([py"--private-key-file", py"-5"], .ok { privateKeyFile := [[py"-5"]] }),
  ([py"--input-fil", py"-", py"--data", py"k1"], .ok { data := (some py"k1"), inputFile := (some py"-") }),
  ([py"--task", py"a", py"-"], .usage),
  ([py"--", py"-d-s", py"--log-file=-.5"], .usage),
  ([py"--log-to-file", py"k1", py"--log-file", py"k1"], .usage),
  ([py"a", py"--log-timestamp=a", py"--design-file=-lx"], .usage),
  ([py"k1", py"--private-key-wif", py"--task", py"info", py"--public-key-hex", py"--=-lx", py"a"], .usage),
  ([py"k2", py"- z", py"--private-key-wif"], .usage),
  ([py"k1", py"a"], .usage),
  ([py"--help", py"--data-file=-hq", py"--private-key-dir", py"b c", py"k1", py"--log-level", py"-5"], .help)] = true := by decide +kernel

example : argsAgree [
  ([py"--private-key-hex", py"--log-to-file=-dt", py"a"], .usage),
  ([py"-h", py"--private-key-wif", py"a", py"--private-key-wif", py"-5", py"--log-level", py"info", py"-d e"], .help),
  ([py"-dtfoo", py"--public-key-hex", py"b c", py"--private-key-hex=-d e"], .ok { task := py"foo", privateKeyHex := [[py"-d e"]], publicKeyHex := (some py"b c"), debug := true }),
  ([py"--input-file", py"b c", py"--help=-d e"], .usage),
  ([py"--private-key-di=-d=", py"--data-file", py"k1", py"--public-key-hex", py"-5", py"--task=-d=s"], .ok { task := py"-d=s", privateKeyDir := (some py"-d="), publicKeyHex := (some py"-5"), dataFile := (some py"k1") }),
  ([py"--d", py"a", py"--log-timestamp", py"k1", py"a", py"--da"], .usage),
  ([py"--private-key-dir", py"--private-key-hex", py"b c", py"--=-d=", py"k1", py"k2"], .usage),
  ([py"--debug", py"a", py"--data"], .usage),
  ([py"--debug", py"a", py"--task=-5", py"--private-key-dir", py"k1", py"--private-ke=info"], .usage),
  ([py"--signature-hex", py"info", py"--private-key-wif", py"--hel=-dt=foo", py"--log-to-file=-5.", py"--task=-d-s"], .usage),
  ([py"--log-f", py"--data", py"--inpu=-linfo", py"a"], .usage),
  ([py"--task", py"a", py"--task", py"info", py"--signature-hex", py"info"], .ok { task := py"info", signatureHex := (some py"info") }),
  ([py"--private-key-hex", py"a", py"--task", py"info", py"k1"], .usage),
  ([py"--log-to-fil=-x", py"--private-key-wif", py"-5", py"--private-key-dir", py"a", py"k1"], .usage),
  ([py"k1", py"k1", py"--private-key-wif", py"b c", py"--log-file", py"info"], .usage),
  ([py"-ds", py"--private-key-w=-ds="], .ok { privateKeyWif := (some py"-ds="), debug := true, logTimestamp := true }),
  ([py"--log-file=-d=", py"--log-level=-ds", py"--private-key-wif", py"info", py"--signature-hex=-dl", py"--"], .usage),
  ([py"a", py"k2", py"--log-to-file", py"--private-key-wif", py"a", py"a", py"-linfo"], .usage),
  ([py"k2", py"--private-key-di=-h", py"--design-file=--unknown=1"], .usage),
  ([py"--input-file=-1.5", py"--data", py"k1", py"k2", py"--data-fi", py"--data-file", py"k1", py"--debug", py"info"], .usage),
  ([py"a", py"--input-file", py"b c", py"--design-file"], .usage),
  ([py"--private-key-hex", py"b c", py"--private-key-wif=-dtfoo", py"-1.5", py"--log-timestamp", py"a", py"--private-key-dir", py"info", py"--help=-dq"], .usage),
  ([py"--help", py"a", py"--private-key-wif", py"b c"], .help),
  ([py"--des", py"--log-level", py"b c", py"k2"], .usage),
  ([py"--log-file", py"a", py"-d=", py"--log-fil=-t", py"--signature-hex", py"k1"], .usage),
  ([py"--log-to-file", py"-5", py"--=a", py"k2", py"--help", py"info", py"--private-key-dir", py"a"], .usage),
  ([py"--log-timestamp", py"k1", py"-hq", py"--design-file", py"a", py"--design-file", py"info", py"--=-tfoo", py"--"], .usage),
  ([py"k1", py"k2", py"--input-f=-d", py"a", py"--private-key-dir", py"b c"], .usage),
  ([py"--data", py"-5", py"k1"], .usage),
  ([py"--public-key-hex", py"-5", py"--data-file", py"k1", py"--private-key-dir=-linfo", py"--help", py"-5", py"--private-key-file", py"b c", py"--data", py"k1"], .help),
  ([py"info", py"--=-ds=1", py"--private-key-file", py"a", py"--input-file", py"k1"], .usage),
  ([py"a", py"--log-timestamp", py"a", py"--log-file", py"k1", py"--private-key-wif", py"-5"], .usage),
  ([py"--help", py"-5.", py"-d-s", py"-lx", py"--design-f", py"-.5"], .help),
  ([py"a", py"--debug", py"b c", py"a", py"--log-file", py"info", py"--private-key-hex", py"b c", py"k2"], .usage),
  ([py"--data", py"-5", py"k1", py"--log-timestamp=error"], .usage),
  ([py"--design-fil=", py"a", py"-t", py"k2"], .usage),
  ([py"--", py"--log-file", py"info", py"--private-key-dir", py"k1", py"--log-file"], .usage),
  ([py"--debug", py"info", py"--log-to-file=", py"--signature-hex=x y", py"a", py"--log-timestamp", py"-5", py"--debug", py"a"], .usage),
  ([py"--private-key-dir", py"-5", py"--private-key-dir", py"--log-file"], .usage),
  ([py"- z", py"--private-key-dir", py"a"], .usage),
  ([py"--log-t=-5\n", py"--log-file", py"b c", py"--private-key-file", py"k1", py"--private-key-wif", py"k1"], .usage),
  ([py"k1", py"--task", py"k1", py"--log-file", py"info"], .usage),
  ([py"--public-key-hex", py"k1", py"--design-file", py"-5", py"-dsx", py"--privat=-dt=foo", py"k1"], .usage),
  ([py"--log-level", py"info", py"--private-key-wif", py"b c"], .ok { privateKeyWif := (some py"b c"), logLevel := py"info" }),
  ([py"--log-timestamp=--task x", py"--debu", py"a", py"-d=s", py"a", py"k1"], .usage),
  ([py"--private-key-wif", py"b c"], .ok { privateKeyWif := (some py"b c") }),
  ([py"--=-ds", py"k1", py"--public-ke"], .usage),
  ([py"-d-s", py"--private-key-dir", py"k1", py"--log-times", py"--da=-=", py"--private-"], .usage),
  ([py"-d", py"--log-to-file=--=a", py"-1.5"], .usage),
  ([py"--task x", py"--private-key-file", py"k1", py"a", py"--private-key-dir", py"k1", py"--design-file"], .usage),
  ([py"--private-key-hex", py"-5", py"k1", py"-5\n", py"--task", py"k1", py"a", py"-zq r"], .usage),
  ([py"-zq", py"--tas=-ds", py"--log-level", py"info", py"--task", py"b c", py"--log-timestamp=-", py"-dsx"], .usage),
  ([py"-d=s", py"--log-level", py"k1"], .usage),
  ([py"--log-file", py"--data", py"b c", py"--log-to-file", py"info", py"a", py"--private-key-dir"], .usage),
  ([py"-dl", py"--help", py"a", py"--data"], .usage),
  ([py"--log-level", py"--private-key-file"], .usage),
  ([py"-d=", py"--design-file", py"info", py"--private-key-wif", py"--publi"], .usage),
  ([py"--private-key-file", py"-5", py"-h", py"-zq r", py"--debug", py"-5", py"k1", py"--private-key-hex", py"a"], .help),
  ([py"--log-to-file", py"k1", py"--log-file=-tfoo", py"--signature-h"], .usage),
  ([py"--data-file", py"k1", py"--log-lev=--task x"], .usage)] = true := by decide +kernel

example : argsAgree [
  ([py"--input-file", py"k2"], .ok { inputFile := (some py"k2") }),
  ([py"-zq", py"--help", py"--log-level", py"info", py"k1", py"--private-key-file=a=b", py"--signature-hex", py"info"], .help),
  ([py"--data-file", py"a", py"--signature-hex", py"a", py"--public-key-hex=-dq", py"x y", py"--log-to-file", py"-5", py"--input-file", py"b c"], .usage),
  ([py"--private-key-wif", py"k1", py"--design-file", py"--log-to-file"], .usage),
  ([py"k1", py"--private-key-dir=a", py"--=a", py"a", py"--p=-dt=foo"], .usage),
  ([py"--public-key-hex=-zq r", py"--data"], .usage),
  ([py"-q", py"--signature-hex"], .usage),
  ([py"-5.", py"--private-key-hex", py"a", py"--input-file", py"b c", py"--help", py"-5"], .help),
  ([py"--data-file", py"k1", py"--task", py"-5", py"--log-timestamp", py"a", py"--log-timestamp", py"k1"], .usage),
  ([py"--private-key-file", py"a", py"k2", py"--help", py"a"], .help),
  ([py"--si", py"-1.5", py"--log-level", py"k1", py"--design-file", py"info", py"--data-file", py"--data=-d=s"], .usage),
  ([py"-ds=", py"k1", py"k2", py"k2"], .usage),
  ([py"--l=-1.5", py"k2"], .usage),
  ([py"--log-file=-zq r", py"--private-key-file", py"info"], .ok { privateKeyFile := [[py"info"]], logFile := py"-zq r" }),
  ([py"-l", py"--log-file", py"k1", py"-d e", py"--data-file", py"-t=foo"], .usage),
  ([py"--signature-hex", py"-5", py"--private-key-dir", py"-5", py"k1"], .usage),
  ([py"--debug=-"], .usage),
  ([py"--private-key-dir=-d=", py"-linfo", py"--data-file", py"a", py"--log-file=-d-s"], .ok { privateKeyDir := (some py"-d="), dataFile := (some py"a"), logLevel := py"info", logFile := py"-d-s" }),
  ([py"--log-file", py"info", py"--public-key-hex", py"", py"--task", py"k1"], .ok { task := py"k1", publicKeyHex := (some py""), logFile := py"info" }),
  ([py"--data", py"b c", py"--private-key-file", py"b c", py"--private-key-file", py"a"], .ok { privateKeyFile := [[py"b c"], [py"a"]], data := (some py"b c") }),
  ([py"--signature-hex", py"b c"], .ok { signatureHex := (some py"b c") }),
  ([py"k2", py"--log-level", py"-5", py"--data-file", py"k1"], .usage),
  ([py"--log-level=--", py"--log-level", py"k1"], .usage),
  ([py"--lo=x y", py"--unknown", py"--debug", py"info", py"--data", py"-5"], .usage),
  ([py"--input-file=a", py"x y", py"k2", py"a", py"--input-file=--task x", py"k1"], .usage),
  ([py"-dt=foo", py"--public-key-hex", py"-5", py"--private-key-dir=--=a", py"--log-timestamp", py"b c", py"k1"], .usage),
  ([py"--log-to-file=--task x", py"a", py"--private-key-wif", py"k1", py"--data-file", py"-5", py"--signatur", py"--task"], .usage),
  ([py"--private-key-hex=-d="], .ok { privateKeyHex := [[py"-d="]] }),
  ([py"--signature-hex=-d", py"-5."], .usage),
  ([py"--log-level", py"-5", py"--data", py"-5", py"--pub", py"--input-=-ds=1", py"k1"], .usage),
  ([py"-dq", py"--private-key-file", py"a", py"--data", py"a", py"--input-file", py"k1"], .usage),
  ([py"--help=-ds", py"--help=-hq", py"--privat=error", py"--signature-hex=--=a", py"--private-key-dir=-.5"], .usage),
  ([py"k2", py"--private-key-wif", py"--private-key-hex", py"-5", py"--private-key-file", py"b c"], .usage),
  ([py"--signature-hex", py"k1", py"--design-file", py"a"], .ok { signatureHex := (some py"k1"), designFile := (some py"a") }),
  ([py"--log-file", py"k1", py"--private-key-fi", py"--in=-5"], .usage),
  ([py"k2", py"--private-key-file=-dt=foo"], .usage),
  ([py"--task", py"b c", py"--private-key-file", py"k1", py"--input-file=-d=", py"--private-key-dir", py"b c", py"--debug", py"-5", py"--debug", py"-5"], .usage),
  ([py"--private-key-hex", py"b c", py"a", py"--private-key-file", py"-5", py"--public-ke", py"--=--"], .usage),
  ([py"--signatur"], .usage),
  ([py"--private-key-wif", py"b c", py"--log-timestamp", py"a"], .usage),
  ([py"--data-f", py"-l", py"--private-key-file", py"-5", py"--private-key-dir", py"b c", py"--help", py"b c"], .usage),
  ([py"--data", py"k1", py"--log-timestamp=-"], .usage),
  ([py"--private-key-wif", py"--public-key-hex", py"k1", py"--private-key-wif", py"--data-file", py"k1", py"--log-timestamp=error"], .usage),
  ([py"--data-file=-.5", py"--signature-hex", py"k1"], .ok { signatureHex := (some py"k1"), dataFile := (some py"-.5") }),
  ([py"--log-level=get_address", py"-5."], .usage),
  ([py"--public-key-hex", py"b c", py"--log-file"], .usage),
  ([py"--d", py"a", py"--input-file=-d=", py"--public-key-hex", py"k1"], .usage),
  ([py"--desig=error"], .ok { designFile := (some py"error") }),
  ([py"--signatu", py"--task", py"k1", py"--private-key-file", py"-5", py"k2"], .usage),
  ([py"k2", py"k1"], .usage),
  ([py"--private-key-wif", py"-5", py"--task", py"b c", py"--data-file", py"k1", py"--log-file=--"], .ok { task := py"b c", privateKeyWif := (some py"-5"), dataFile := (some py"k1"), logFile := py"--" }),
  ([py"--signature-hex", py"--debug=-l", py"--signature-h", py"a", py"k2", py"--help", py"b c"], .usage),
  ([py"info", py"--debug", py"-5", py"--log-to-file", py"--task", py"--private-key-hex", py"-5"], .usage),
  ([py"k2", py"--input-file", py"-5", py"--private-key-wif", py"-5", py"--public-key-hex", py"info"], .usage),
  ([py"--log-to-file", py"k1", py"--private-key-wif", py"b c", py"-zq", py"--help", py"info", py"--signature-hex", py"-5"], .help),
  ([py"a", py"-ds", py"-=", py"--debug", py"k1"], .usage),
  ([py"-q", py"--log-fi", py"--help=get_address", py"--data-file", py"--private-key-file", py"-5", py"--data", py"b c"], .usage),
  ([py"a", py"-5", py"--log-level", py"b c"], .usage),
  ([py"--log-file", py"b c"], .ok { logFile := py"b c" }),
  ([py"--data-file", py"-5", py"--debug", py"info", py"--de", py"--s"], .usage)] = true := by decide +kernel

example : argsAgree [
  ([py"--log-timestamp", py"b c"], .usage),
  ([py"-zq", py"--data", py"a", py"--private-key-dir", py"-5", py"--private-key-hex", py"a", py"--private-key-wif"], .usage),
  ([py"--debug="], .usage),
  ([py"k1", py"--lo"], .usage),
  ([py"--private-key-file", py"--input-file", py"-5", py"--private-key-he=-linfo", py"k2"], .usage),
  ([py"--design-file", py"b c", py"--log-file", py"k1"], .ok { designFile := (some py"b c"), logFile := py"k1" }),
  ([py"k2", py"--input-file"], .usage),
  ([py"--public-key-hex", py"b c", py"--private-key-hex=-dt", py"a", py"k2", py"--log-timestamp", py"info", py"--private-key-hex", py"b c"], .usage),
  ([py"--pri=-ds=1", py"--public-key-hex", py"k1", py"--log-file", py"--in"], .usage),
  ([py"k1", py"-dtfoo", py"k1", py"--log-to-file=-dt=foo"], .usage),
  ([py"--log-l", py"get_address"], .usage),
  ([py"a", py"--private-key-hex=-.5", py"--help", py"-5", py"--"], .help),
  ([py"k2", py"--input-file", py"info"], .usage),
  ([py"--log-level=-1.5"], .usage),
  ([py"--log-timestamp", py"info", py"--", py"--log-timestam", py"-1.5", py"--debug"], .usage),
  ([py"--signatu", py"k2", py"--log-to-file", py"b c", py"k1", py"--data", py"a"], .usage),
  ([py"--design-file", py"k1", py"--help=-dtfoo"], .usage),
  ([py"--log-ti=-dt=foo", py"--log-timestamp", py"-5"], .usage),
  ([py"-a b", py"--data", py"--private-key-dir", py"b c", py"--help=-t", py"--log-to-file"], .usage),
  ([py"--public-key-hex", py"--design-file", py"-5"], .usage),
  ([py"--design-file", py"a", py"--log-file", py"a", py"--log-lev", py"k1", py"--d=-dq", py"-"], .usage),
  ([py"--signature-hex", py"b c", py"--log-timestamp"], .ok { signatureHex := (some py"b c"), logTimestamp := true }),
  ([py"-s", py"k1", py"--task", py"a"], .usage),
  ([py"--help", py"k1", py"--public-key-hex", py"-dh", py"--log-timestamp", py"a", py"k2"], .help),
  ([py"--private-key-dir", py"-5", py"--private-key-file=-d e", py"--input-file", py"a", py"a", py"--private-key"], .usage),
  ([py"--log-to-file", py"a", py"--design-file=--", py"a", py"--log-to-file"], .usage),
  ([py"--private-key-wif", py"-5", py"--help", py"-5\n", py"--log-timestamp", py"k1", py"info"], .help),
  ([py"--data-file", py"k1"], .ok { dataFile := (some py"k1") }),
  ([py"--signature-", py"--signature-hex=-x", py"--private-key-hex", py"b c", py"-dh"], .usage),
  ([py"--data", py"a", py"--log-timestamp=-d=s", py"k1", py"k1", py"--deb", py"k1"], .usage),
  ([py"-a b", py"--design-file", py"a", py"--task=- z", py"--he=--=a", py"k2"], .usage),
  ([py"--data-==", py"a", py"--log-level", py"-5", py"--signature-hex", py"-d e"], .usage),
  ([py"--log-timestamp", py"--debug=--", py"k1"], .usage),
  ([py"-ds", py"k2", py"--log-level", py"b c"], .usage),
  ([py"k1", py"--log-timestamp", py"b c", py"a", py"--data", py"b c"], .usage),
  ([py"--task", py"-5", py"-1.5", py"--priva=-a b"], .usage),
  ([py"--debug", py"a", py"k1", py"--deb==", py"k1", py"--signature-hex", py"k1", py"--log-to-file", py"k1"], .usage),
  ([py"--task=-l"], .ok { task := py"-l" }),
  ([py"x y", py"--log-to=-dq", py"info"], .usage),
  ([py"--data-file", py"b c", py"--private-key-wif", py"--debug", py"--design-file=-linfo", py"--log-timestamp", py"info"], .usage),
  ([py"--log-file", py"-5", py"--help", py"--private-key-hex", py"--debug", py"-5"], .help),
  ([py"-t=foo", py"--data-file=-dt=foo"], .ok { task := py"foo", dataFile := (some py"-dt=foo") }),
  ([py"--log-timestamp=-=", py"--input-file=-ds"], .usage),
  ([py"--debug=--unknown"], .usage),
  ([py"--private-key-hex=-dl", py"-t", py"--log-to-file", py"k1"], .usage),
  ([py"-.5", py"--log-to-file", py"-5", py"--private-key-file", py"k1"], .usage),
  ([py"--log-to-file", py"b c"], .usage)] = true := by decide +kernel

end BT.Conformance
