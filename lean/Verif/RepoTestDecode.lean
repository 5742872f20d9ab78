import Verif.DecodeRunProps

/-! # The tests of `tools/CMakeLists.txt` on the model of emv-decode

Each test of the project is a command line and a regular expression for what is printed.  Here the model
is run on the command line, and its output, in full, was compared with the expression.  These are tests
of the model, not proofs. -/

set_option autoImplicit false

namespace Verif.RepoTest
open DecodeArgs

/-- Entries of iso-codes which the tests use. -/
def country (a2 a3 name num : List Byte) : Codes.Json :=
  .obj [(txt!"alpha_2", .str a2), (txt!"alpha_3", .str a3), (txt!"name", .str name), (txt!"numeric", .str num)]
def currency (a3 name num : List Byte) : Codes.Json :=
  .obj [(txt!"alpha_3", .str a3), (txt!"name", .str name), (txt!"numeric", .str num)]
def language (a2 a3 name : List Byte) : Codes.Json :=
  .obj [(txt!"alpha_2", .str a2), (txt!"alpha_3", .str a3), (txt!"name", .str name)]

def lib : Codes.Lib where
  file p :=
    if p = txt!"/iso_3166-1.json" then some (.obj [(txt!"3166-1", .arr [
      country txt!"FR" txt!"FRA" txt!"France" txt!"250", country txt!"NL" txt!"NLD" txt!"Netherlands" txt!"528",
      country txt!"GB" txt!"GBR" txt!"United Kingdom" txt!"826",
      country txt!"US" txt!"USA" txt!"United States" txt!"840"])])
    else if p = txt!"/iso_4217.json" then some (.obj [(txt!"4217", .arr [
      currency txt!"EUR" txt!"Euro" txt!"978", currency txt!"GBP" txt!"Pound Sterling" txt!"826",
      currency txt!"HKD" txt!"Hong Kong Dollar" txt!"344", currency txt!"USD" txt!"US Dollar" txt!"840"])])
    else if p = txt!"/iso_639-2.json" then some (.obj [(txt!"639-2", .arr [
      language txt!"en" txt!"eng" txt!"English", language txt!"fr" txt!"fra" txt!"French",
      language txt!"wa" txt!"wln" txt!"Walloon", language txt!"zh" txt!"zho" txt!"Chinese"])])
    else if p = txt!"mcc.json" then some (.arr [
      .obj [(txt!"mcc", .str txt!"5999"),
        (txt!"edited_description", .str txt!"Miscellaneous and Specialty Retail Stores")]])
    else none
  text _ := []
  int64
    | .str s => s.foldl (fun n c => 10 * n + (c.toNat - 48 : Int)) 0
    | _ => 0
  stoul s := some (s.foldl (fun n c => 10 * n + (c.toNat - 48)) 0)
  isoPath := txt!"/"
  mccPath := txt!"not there"

def world : World :=
  { posix := false, help := txt!"HELP", usage := txt!"USAGE", version := txt!"1.2", badOption := txt!"BAD",
    hint := txt!"HINT", input := [], files := lib,
    scratch := ⟨fun _ => List.replicate 128 7, List.replicate 128 7, fun _ => List.replicate 128 7,
      fun _ => List.replicate 128 7, [7, 7, 7]⟩,
    locals := Decode.holding (List.replicate 2048 7), mem := fun n => List.replicate n 7 }

/-- `emv_decode_test1` (tools/CMakeLists.txt:131). -/
example : run world [txt!"--atr", txt!"3BDA18FF81B1FE751F030031F573C78A40009000B0", txt!"--mcc-json", txt!"mcc.json"] = .ok (.exit 0 ⟨
    txt!"ATR: 3BDA18FF81B1FE751F030031F573C78A40009000B0\n" ++
    txt!"  TS  = 0x3B: Direct convention\n" ++
    txt!"  T0  = 0xDA: Y1=TA1,TC1,TD1; K=10\n" ++
    txt!"  ----\n" ++
    txt!"  TA1 = 0x18: Fi=372; Di=12; 31 cycles/ETU @ max 5.0MHz; max 161290 bit/s\n" ++
    txt!"  TB1 absent: Vpp is not connected\n" ++
    txt!"  TC1 = 0xFF: N=255; GT=11\n" ++
    txt!"  TD1 = 0x81: Y2=TD2; Protocol T=1\n" ++
    txt!"  ----\n" ++
    txt!"  TA2 absent: Negotiable mode\n" ++
    txt!"  TB2 absent: Vpp is not connected\n" ++
    txt!"  TC2 absent: WI=10; WT=115200\n" ++
    txt!"  TD2 = 0xB1: Y3=TA3,TB3,TD3; Protocol T=1\n" ++
    txt!"  ----\n" ++
    txt!"  TA3 = 0xFE: IFSI=254\n" ++
    txt!"  TB3 = 0x75: CWT=43; BWT=1474571\n" ++
    txt!"  TD3 = 0x1F: Y4=TA4; Global (T=15)\n" ++
    txt!"  ----\n" ++
    txt!"  TA4 = 0x03: Clock stop: Not supported; Class: A (5V), B (3V)\n" ++
    txt!"  ----\n" ++
    txt!"  T1  = 0x00: COMPACT-TLV followed by mandatory status indicator\n" ++
    txt!"  Card service data (0x3): [1] F5\n" ++
    txt!"    - Application selection: by full DF name\n" ++
    txt!"    - Application selection: by partial DF name\n" ++
    txt!"    - BER-TLV data objects available in EF.DIR\n" ++
    txt!"    - BER-TLV data objects available in EF.ATR\n" ++
    txt!"    - EF.DIR and EF.ATR access services: by GET DATA command (TLV structure)\n" ++
    txt!"    - Card without MF\n" ++
    txt!"  Card capabilities (0x7): [3] C7 8A 40\n" ++
    txt!"    - DF selection: by full DF NAME\n" ++
    txt!"    - DF selection: by partial DF NAME\n" ++
    txt!"    - Short EF identifier supported\n" ++
    txt!"    - Record number supported\n" ++
    txt!"    - Record identifier supported\n" ++
    txt!"    - EFs of TLV structure supported\n" ++
    txt!"    - Behaviour of write functions: one-time write\n" ++
    txt!"    - FF as first byte of BER-TLV tag is invalid / padding\n" ++
    txt!"    - Data unit size: 512 bytes\n" ++
    txt!"    - Extended Lc and Le fields\n" ++
    txt!"    - No logical channel\n" ++
    txt!"    - Maximum number of logical channels: 1\n" ++
    txt!"  ----\n" ++
    txt!"  LCS = 00: No information given\n" ++
    txt!"  SW  = 9000: (Normal)\n" ++
    txt!"  ----\n" ++
    txt!"  TCK = 0xB0\n", []⟩) := by
  decide +kernel

/-- `emv_decode_test2` (tools/CMakeLists.txt:169). -/
example : run world [txt!"--tlv", txt!"810400000320", txt!"--mcc-json", txt!"mcc.json"] = .ok (.exit 0 ⟨
    txt!"81 | Amount, Authorised (Binary) : [4] 00 00 03 20 (800)\n", []⟩) := by
  decide +kernel

/-- `emv_decode_test3` (tools/CMakeLists.txt:178): the byte written past the array for the digits (`C50_overflow`) goes
unnoticed in the test. -/
example : run world [txt!"--tlv", txt!"9A03221215", txt!"--mcc-json", txt!"mcc.json"] = .error .oobWrite := by
  decide +kernel

/-- `emv_decode_test4` (tools/CMakeLists.txt:187): the byte written past the array for the digits (`C50_overflow`) goes
unnoticed in the test. -/
example : run world [txt!"--tlv", txt!"9F2103111542", txt!"--mcc-json", txt!"mcc.json"] = .error .oobWrite := by
  decide +kernel

/-- `emv_decode_test5` (tools/CMakeLists.txt:196). -/
example : run world [txt!"--tlv", txt!"9C0100", txt!"--mcc-json", txt!"mcc.json"] = .ok (.exit 0 ⟨
    txt!"9C | Transaction Type : [1] 00 (Goods and services)\n", []⟩) := by
  decide +kernel

/-- `emv_decode_test6` (tools/CMakeLists.txt:205). -/
example : run world [txt!"--tlv", txt!"9F390105", txt!"--mcc-json", txt!"mcc.json"] = .ok (.exit 0 ⟨
    txt!"9F39 | Point-of-Service (POS) Entry Mode : [1] 05 (Integrated circuit card (ICC). CVV can be checked.)\n", []⟩) := by
  decide +kernel

/-- `emv_decode_test7` (tools/CMakeLists.txt:214). -/
example : run world [txt!"--tlv", txt!"571040123456789095D2512201197339300F", txt!"--mcc-json", txt!"mcc.json"] = .ok (.exit 0 ⟨
    txt!"57 | Track 2 Equivalent Data : [16] 40 12 34 56 78 90 95 D2 51 22 01 19 73 39 30 0F (40123456789095=2512201197339300)\n", []⟩) := by
  decide +kernel

/-- `emv_decode_test8` (tools/CMakeLists.txt:223). -/
example : run world [txt!"--tlv", txt!"701F9F390105571040123456789095D2512201197339300F820259009F15025999", txt!"--mcc-json", txt!"mcc.json"] = .ok (.exit 0 ⟨
    txt!"70 | EMV Data Template : [31]\n" ++
    txt!"  9F39 | Point-of-Service (POS) Entry Mode : [1] 05 (Integrated circuit card (ICC). CVV can be checked.)\n" ++
    txt!"  57 | Track 2 Equivalent Data : [16] 40 12 34 56 78 90 95 D2 51 22 01 19 73 39 30 0F (40123456789095=2512201197339300)\n" ++
    txt!"  82 | Application Interchange Profile (AIP) : [2] 59 00\n" ++
    txt!"    - Static Data Authentication (SDA) is supported\n" ++
    txt!"    - Cardholder verification is supported\n" ++
    txt!"    - Terminal risk management is to be performed\n" ++
    txt!"    - Combined DDA/Application Cryptogram Generation (CDA) is supported\n" ++
    txt!"  9F15 | Merchant Category Code (MCC) : [2] 59 99 (Miscellaneous and Specialty Retail Stores)\n", []⟩) := by
  decide +kernel

/-- `emv_decode_country_test1` (tools/CMakeLists.txt:243). -/
example : run world [txt!"--country", txt!"528", txt!"--mcc-json", txt!"mcc.json"] = .ok (.exit 0 ⟨
    txt!"Netherlands\n", []⟩) := by
  decide +kernel

/-- `emv_decode_country_test2` (tools/CMakeLists.txt:252). -/
example : run world [txt!"--iso3166-1", txt!"GBR", txt!"--mcc-json", txt!"mcc.json"] = .ok (.exit 0 ⟨
    txt!"United Kingdom\n", []⟩) := by
  decide +kernel

/-- `emv_decode_country_test3` (tools/CMakeLists.txt:261). -/
example : run world [txt!"--country", txt!"US", txt!"--mcc-json", txt!"mcc.json"] = .ok (.exit 0 ⟨
    txt!"United States\n", []⟩) := by
  decide +kernel

/-- `emv_decode_currency_test1` (tools/CMakeLists.txt:270). -/
example : run world [txt!"--currency", txt!"978", txt!"--mcc-json", txt!"mcc.json"] = .ok (.exit 0 ⟨
    txt!"Euro\n", []⟩) := by
  decide +kernel

/-- `emv_decode_currency_test2` (tools/CMakeLists.txt:279). -/
example : run world [txt!"--iso4217", txt!"HKD", txt!"--mcc-json", txt!"mcc.json"] = .ok (.exit 0 ⟨
    txt!"Hong Kong Dollar\n", []⟩) := by
  decide +kernel

/-- `emv_decode_currency_test3` (tools/CMakeLists.txt:288). -/
example : run world [txt!"--currency", txt!"826", txt!"--mcc-json", txt!"mcc.json"] = .ok (.exit 0 ⟨
    txt!"Pound Sterling\n", []⟩) := by
  decide +kernel

/-- `emv_decode_language_test1` (tools/CMakeLists.txt:297). -/
example : run world [txt!"--language", txt!"fr", txt!"--mcc-json", txt!"mcc.json"] = .ok (.exit 0 ⟨
    txt!"French\n", []⟩) := by
  decide +kernel

/-- `emv_decode_language_test2` (tools/CMakeLists.txt:306). -/
example : run world [txt!"--iso639", txt!"zh", txt!"--mcc-json", txt!"mcc.json"] = .ok (.exit 0 ⟨
    txt!"Chinese\n", []⟩) := by
  decide +kernel

/-- `emv_decode_language_test3` (tools/CMakeLists.txt:315). -/
example : run world [txt!"--language", txt!"wln", txt!"--mcc-json", txt!"mcc.json"] = .ok (.exit 0 ⟨
    txt!"Walloon\n", []⟩) := by
  decide +kernel

/-- `emv_decode_9F3B_test1` (tools/CMakeLists.txt:324). -/
example : run world [txt!"--tlv", txt!"9F3B06097808260840", txt!"--mcc-json", txt!"mcc.json"] = .ok (.exit 0 ⟨
    txt!"9F3B | Application Reference Currency : [6] 09 78 08 26 08 40\n" ++
    txt!"  - Euro\n" ++
    txt!"  - Pound Sterling\n" ++
    txt!"  - US Dollar\n", []⟩) := by
  decide +kernel

/-- `emv_decode_9F3B_test2` (tools/CMakeLists.txt:339). -/
example : run world [txt!"--tlv", txt!"9F3B06097801230840", txt!"--mcc-json", txt!"mcc.json"] = .ok (.exit 0 ⟨
    txt!"9F3B | Application Reference Currency : [6] 09 78 01 23 08 40\n" ++
    txt!"  - Euro\n" ++
    txt!"  - Unknown\n" ++
    txt!"  - US Dollar\n", []⟩) := by
  decide +kernel

/-- `emv_decode_5F2D_test1` (tools/CMakeLists.txt:354). -/
example : run world [txt!"--tlv", txt!"5F2D04656E6672", txt!"--mcc-json", txt!"mcc.json"] = .ok (.exit 0 ⟨
    txt!"5F2D | Language Preference : [4] 65 6E 66 72\n" ++
    txt!"  - English\n" ++
    txt!"  - French\n", []⟩) := by
  decide +kernel

/-- `emv_decode_5F2D_test2` (tools/CMakeLists.txt:368). -/
example : run world [txt!"--tlv", txt!"5F2D04454E4652", txt!"--mcc-json", txt!"mcc.json"] = .ok (.exit 0 ⟨
    txt!"5F2D | Language Preference : [4] 45 4E 46 52\n" ++
    txt!"  - English\n" ++
    txt!"  - French\n", []⟩) := by
  decide +kernel

/-- `emv_decode_5F2D_test3` (tools/CMakeLists.txt:382). -/
example : run world [txt!"--tlv", txt!"5F2D04656EFFFF", txt!"--mcc-json", txt!"mcc.json"] = .ok (.exit 0 ⟨
    txt!"5F2D | Language Preference : [4] 65 6E FF FF\n" ++
    txt!"  - English\n" ++
    txt!"  - Unknown\n", []⟩) := by
  decide +kernel

/-- `emv_decode_9F6E_test1` (tools/CMakeLists.txt:396). -/
example : run world [txt!"--tlv", txt!"9F6E0E0528000332310001010840000000", txt!"--mcc-json", txt!"mcc.json"] = .ok (.exit 0 ⟨
    txt!"9F6E | Third Party Data : [14] 05 28 00 03 32 31 00 01 01 08 40 00 00 00\n" ++
    txt!"  - Country: Netherlands\n" ++
    txt!"  - Unique Identifier: Mastercard Product Extension\n" ++
    txt!"  - Device Type: 21 - Phone (Mobile phone)\n" ++
    txt!"  - Product Identifier: Fleet Card\n" ++
    txt!"  - Product Restriction Code: Good for fuel and other products\n" ++
    txt!"  - Product Type Code: Prompt for Odometer\n" ++
    txt!"  - Card Type: Vehicle card\n", []⟩) := by
  decide +kernel

/-- `emv_decode_9F6E_test2` (tools/CMakeLists.txt:415). -/
example : run world [txt!"--tlv", txt!"9F6E0B0250000330350002000200", txt!"--mcc-json", txt!"mcc.json"] = .ok (.exit 0 ⟨
    txt!"9F6E | Third Party Data : [11] 02 50 00 03 30 35 00 02 00 02 00\n" ++
    txt!"  - Country: France\n" ++
    txt!"  - Unique Identifier: Mastercard Product Extension\n" ++
    txt!"  - Device Type: 05 - Wristband\n" ++
    txt!"  - Product Identifier: Transit\n" ++
    txt!"  - Concession Code: 02 - Student, potentially eligible for student-based discounts\n", []⟩) := by
  decide +kernel

/-- `emv_decode_9F6E_test3` (tools/CMakeLists.txt:432). -/
example : run world [txt!"--tlv", txt!"9F6E04238C0000", txt!"--mcc-json", txt!"mcc.json"] = .ok (.exit 0 ⟨
    txt!"9F6E | Form Factor Indicator (FFI) : [4] 23 8C 00 00\n" ++
    txt!"  - Consumer Payment Device Form Factor: Consumer mobile phone\n" ++
    txt!"  - Consumer Payment Device Features: Passcode Capable\n" ++
    txt!"  - Consumer Payment Device Features: Two-way Messaging\n" ++
    txt!"  - Consumer Payment Device Features: Cloud Based Payment Credentials\n" ++
    txt!"  - Payment Transaction Technology: Proximity Contactless interface using ISO 14443 (including NFC)\n", []⟩) := by
  decide +kernel

/-- `emv_decode_9F6E_test4` (tools/CMakeLists.txt:448). -/
example : run world [txt!"--tlv", txt!"9F6E049CD04003", txt!"--mcc-json", txt!"mcc.json"] = .ok (.exit 0 ⟨
    txt!"9F6E | Enhanced Contactless Reader Capabilities : [4] 9C D0 40 03\n" ++
    txt!"  - Contact mode supported\n" ++
    txt!"  - Contactless EMV partial online mode supported\n" ++
    txt!"  - Contactless Mobile Supported\n" ++
    txt!"  - Try Another Interface after a decline\n" ++
    txt!"  - Mobile CVM supported\n" ++
    txt!"  - Online PIN supported\n" ++
    txt!"  - Plaintext Offline PIN supported\n" ++
    txt!"  - CVM Required\n" ++
    txt!"  - C-4 kernel version 2.7\n", []⟩) := by
  decide +kernel

/-- `emv_decode_IAD_test1` (tools/CMakeLists.txt:469). -/
example : run world [txt!"--issuer-app-data", txt!"0FA526A83100000000000001500000000F240000000000000000000000000000", txt!"--mcc-json", txt!"mcc.json"] = .ok (.exit 0 ⟨
    txt!"Application: CCD-Compliant\n" ++
    txt!"IAD Format: CCD Version 4.1\n" ++
    txt!"Cryptogram Version: TDES\n" ++
    txt!"Derivation Key Index (DKI): 26\n" ++
    txt!"Card Verification Results (CVR): Second GENERATE AC Not Requested\n" ++
    txt!"Card Verification Results (CVR): First GENERATE AC returned ARQC\n" ++
    txt!"Card Verification Results (CVR): Combined DDA/Application Cryptogram Generation (CDA) Performed\n" ++
    txt!"Card Verification Results (CVR): PIN Try Counter is 3\n" ++
    txt!"Card Verification Results (CVR): Last Online Transaction Not Completed\n", []⟩) := by
  decide +kernel

/-- `emv_decode_IAD_test2` (tools/CMakeLists.txt:489). -/
example : run world [txt!"--issuer-app-data", txt!"0110A04003223000000000001126980002FF", txt!"--mcc-json", txt!"mcc.json"] = .ok (.exit 0 ⟨
    txt!"Application: M/Chip 4\n" ++
    txt!"Derivation Key Index (DKI): 01\n" ++
    txt!"Cryptogram Version Number (CVN): 10\n" ++
    txt!"Cryptogram: Mastercard Proprietary SKD session key\n" ++
    txt!"Cryptogram: Counters not included in AC data\n" ++
    txt!"Card Verification Results (CVR): Second GENERATE AC Not Requested\n" ++
    txt!"Card Verification Results (CVR): First GENERATE AC returned ARQC\n" ++
    txt!"Card Verification Results (CVR): Combined DDA/Application Cryptogram Generation (CDA) Returned in First GENERATE AC\n" ++
    txt!"Card Verification Results (CVR): PIN Try Counter is 3\n" ++
    txt!"Card Verification Results (CVR): Offline PIN Verification Not Performed\n" ++
    txt!"Card Verification Results (CVR): Domestic Transaction\n" ++
    txt!"Card Verification Results (CVR): Lower Cumulative Offline Limit Exceeded\n" ++
    txt!"Card Verification Results (CVR): Upper Cumulative Offline Limit Exceeded\n", []⟩) := by
  decide +kernel

/-- `emv_decode_IAD_test3` (tools/CMakeLists.txt:513). -/
example : run world [txt!"--issuer-app-data", txt!"0110A04203A20000000000000000000000FF00000000000000FF", txt!"--mcc-json", txt!"mcc.json"] = .ok (.exit 0 ⟨
    txt!"Application: M/Chip Advance\n" ++
    txt!"Derivation Key Index (DKI): 01\n" ++
    txt!"Cryptogram Version Number (CVN): 10\n" ++
    txt!"Cryptogram: Mastercard Proprietary SKD session key\n" ++
    txt!"Cryptogram: Counters not included in AC data\n" ++
    txt!"Card Verification Results (CVR): Second GENERATE AC Not Requested\n" ++
    txt!"Card Verification Results (CVR): First GENERATE AC returned ARQC\n" ++
    txt!"Card Verification Results (CVR): Combined DDA/Application Cryptogram Generation (CDA) Returned in First GENERATE AC\n" ++
    txt!"Card Verification Results (CVR): Issuer Discretionary\n" ++
    txt!"Card Verification Results (CVR): PIN Try Counter is 3\n" ++
    txt!"Card Verification Results (CVR): Last Online Transaction Not Completed\n" ++
    txt!"Card Verification Results (CVR): Offline PIN Verification Not Performed\n" ++
    txt!"Card Verification Results (CVR): Domestic Transaction\n", []⟩) := by
  decide +kernel

/-- `emv_decode_IAD_test4` (tools/CMakeLists.txt:537). -/
example : run world [txt!"--issuer-app-data", txt!"06011203A000000F0300001030800000046920AE952C48", txt!"--mcc-json", txt!"mcc.json"] = .ok (.exit 0 ⟨
    txt!"Application: Visa Smart Debit/Credit (VSDC)\n" ++
    txt!"IAD Format: 1\n" ++
    txt!"Derivation Key Index (DKI): 01\n" ++
    txt!"Cryptogram Version Number (CVN): 12 (CVN18)\n" ++
    txt!"Card Verification Results (CVR): Second GENERATE AC Not Requested\n" ++
    txt!"Card Verification Results (CVR): First GENERATE AC returned ARQC\n", []⟩) := by
  decide +kernel

/-- `emv_decode_IAD_test5` (tools/CMakeLists.txt:554). -/
example : run world [txt!"--issuer-app-data", txt!"1F43FE82A0000000000000000003075300000000000000000000000000000000", txt!"--mcc-json", txt!"mcc.json"] = .ok (.exit 0 ⟨
    txt!"Application: Visa Smart Debit/Credit (VSDC)\n" ++
    txt!"IAD Format: 4\n" ++
    txt!"Cryptogram Version Number (CVN): 43 (CVN'43')\n" ++
    txt!"Derivation Key Index (DKI): FE\n" ++
    txt!"Card Verification Results (CVR): Verified by the mobile device OS\n" ++
    txt!"Card Verification Results (CVR): Finger biometric\n" ++
    txt!"Card Verification Results (CVR): Second GENERATE AC Not Requested\n" ++
    txt!"Card Verification Results (CVR): GPO returned ARQC\n", []⟩) := by
  decide +kernel

/-- `emv_decode_9F1D_test1` (tools/CMakeLists.txt:573). -/
example : run world [txt!"--terminal-risk-management-data", txt!"6C7A800000000000", txt!"--mcc-json", txt!"mcc.json"] = .ok (.exit 0 ⟨
    txt!"Enciphered PIN verified online (Contactless)\n" ++
    txt!"Signature (paper) (Contactless)\n" ++
    txt!"No CVM required (Contactless)\n" ++
    txt!"CDCVM (Contactless)\n" ++
    txt!"Enciphered PIN verified online (Contact)\n" ++
    txt!"Signature (paper) (Contact)\n" ++
    txt!"Enciphered PIN verification performed by ICC (Contact)\n" ++
    txt!"No CVM required (Contact)\n" ++
    txt!"Plaintext PIN verification performed by ICC (Contact)\n" ++
    txt!"Mag-stripe mode contactless transactions not supported\n", []⟩) := by
  decide +kernel

/-- `emv_decode_9F1D_test2` (tools/CMakeLists.txt:594). -/
example : run world [txt!"--9F1D", txt!"4C7A800000000000", txt!"--mcc-json", txt!"mcc.json"] = .ok (.exit 0 ⟨
    txt!"Enciphered PIN verified online (Contactless)\n" ++
    txt!"No CVM required (Contactless)\n" ++
    txt!"CDCVM (Contactless)\n" ++
    txt!"Enciphered PIN verified online (Contact)\n" ++
    txt!"Signature (paper) (Contact)\n" ++
    txt!"Enciphered PIN verification performed by ICC (Contact)\n" ++
    txt!"No CVM required (Contact)\n" ++
    txt!"Plaintext PIN verification performed by ICC (Contact)\n" ++
    txt!"Mag-stripe mode contactless transactions not supported\n", []⟩) := by
  decide +kernel

/-- `emv_decode_issuer_response_test1` (tools/CMakeLists.txt:615). -/
example : run world [txt!"--tlv", txt!"89063130363630398A023030910A50FC6205038200003030", txt!"--mcc-json", txt!"mcc.json"] = .ok (.exit 0 ⟨
    txt!"89 | Authorisation Code : [6] 31 30 36 36 30 39 \"106609\"\n" ++
    txt!"8A | Authorisation Response Code : [2] 30 30 \"00 - Approved or completed successfully\"\n" ++
    txt!"91 | Issuer Authentication Data : [10] 50 FC 62 05 03 82 00 00 30 30\n" ++
    txt!"  - Authorisation Response Cryptogram (ARPC): 50FC620503820000\n" ++
    txt!"  - Authorisation Response Code: 00\n", []⟩) := by
  decide +kernel

/-- `emv_decode_issuer_response_test2` (tools/CMakeLists.txt:632). -/
example : run world [txt!"--tlv", txt!"89063632373132337211860F04DA9F6B0A000000050000919863528A0230309108A584F94900820000", txt!"--mcc-json", txt!"mcc.json"] = .ok (.exit 0 ⟨
    txt!"89 | Authorisation Code : [6] 36 32 37 31 32 33 \"627123\"\n" ++
    txt!"72 | Issuer Script Template 2 : [17]\n" ++
    txt!"  86 | Issuer Script Command : [15] 04 DA 9F 6B 0A 00 00 00 05 00 00 91 98 63 52 (PUT DATA for BER-TLV field 9F6B)\n" ++
    txt!"8A | Authorisation Response Code : [2] 30 30 \"00 - Approved or completed successfully\"\n" ++
    txt!"91 | Issuer Authentication Data : [8] A5 84 F9 49 00 82 00 00\n" ++
    txt!"  - Authorisation Response Cryptogram (ARPC): A584F949\n" ++
    txt!"  - Card Status Update (CSU): Issuer Approves Online Transaction\n" ++
    txt!"  - Card Status Update (CSU): Reset Offline Counters to Zero\n", []⟩) := by
  decide +kernel

/-- `emv_decode_issuer_response_test3` (tools/CMakeLists.txt:652). -/
example : run world [txt!"--tlv", txt!"910AFC436535D614F37300108A0230308906383139353334", txt!"--mcc-json", txt!"mcc.json"] = .ok (.exit 0 ⟨
    txt!"91 | Issuer Authentication Data : [10] FC 43 65 35 D6 14 F3 73 00 10\n" ++
    txt!"  - Authorisation Response Cryptogram (ARPC): FC436535D614F373\n" ++
    txt!"  - M/Chip ARPC Response Code: 0010\n" ++
    txt!"8A | Authorisation Response Code : [2] 30 30 \"00 - Approved or completed successfully\"\n" ++
    txt!"89 | Authorisation Code : [6] 38 31 39 35 33 34 \"819534\"\n", []⟩) := by
  decide +kernel

/-- `emv_decode_issuer_response_test4` (tools/CMakeLists.txt:669). -/
example : run world [txt!"--tlv", txt!"72459F18048000000086158424000210FEBF34F00B7CE770DC61DA847BFB1E59862504DA8E00200000000000000000420141035E031F020000000000000000AC7F4DF1D624A0ED", txt!"--mcc-json", txt!"mcc.json"] = .ok (.exit 0 ⟨
    txt!"72 | Issuer Script Template 2 : [69]\n" ++
    txt!"  9F18 | Issuer Script Identifier : [4] 80 00 00 00\n" ++
    txt!"  86 | Issuer Script Command : [21] 84 24 00 02 10 FE BF 34 F0 0B 7C E7 70 DC 61 DA 84 7B FB 1E 59 (PIN CHANGE/UNBLOCK)\n" ++
    txt!"  86 | Issuer Script Command : [37] 04 DA 8E 00 20 00 00 00 00 00 00 00 00 42 01 41 03 5E 03 1F 02 00 00 00 00 00 00 00 00 AC 7F 4D F1 D6 24 A0 ED (PUT DATA for BER-TLV field 8E00)\n", []⟩) := by
  decide +kernel

/-- `emv_decode_issuer_response_test5` (tools/CMakeLists.txt:685). -/
example : run world [txt!"--tlv", txt!"72179F180400004000860E04DA9F580900C7356286E3779889", txt!"--mcc-json", txt!"mcc.json"] = .ok (.exit 0 ⟨
    txt!"72 | Issuer Script Template 2 : [23]\n" ++
    txt!"  9F18 | Issuer Script Identifier : [4] 00 00 40 00\n" ++
    txt!"  86 | Issuer Script Command : [14] 04 DA 9F 58 09 00 C7 35 62 86 E3 77 98 89 (PUT DATA for BER-TLV field 9F58)\n", []⟩) := by
  decide +kernel

/-- `emv_decode_9F27_test1` (tools/CMakeLists.txt:699). -/
example : run world [txt!"--tlv", txt!"9F270160", txt!"--mcc-json", txt!"mcc.json"] = .ok (.exit 0 ⟨
    txt!"9F27 | Cryptogram Information Data : [1] 60\n" ++
    txt!"  - Application Cryptogram (AC) type: Transaction Certificate (TC)\n" ++
    txt!"  - Payment System-specific cryptogram: 0x20\n", []⟩) := by
  decide +kernel

/-- `emv_decode_9F27_test2` (tools/CMakeLists.txt:713). -/
example : run world [txt!"--tlv", txt!"9F270101", txt!"--mcc-json", txt!"mcc.json"] = .ok (.exit 0 ⟨
    txt!"9F27 | Cryptogram Information Data : [1] 01\n" ++
    txt!"  - Application Cryptogram (AC) type: Application Authentication Cryptogram (AAC)\n" ++
    txt!"  - No advice required\n" ++
    txt!"  - Advice: Service not allowed\n", []⟩) := by
  decide +kernel

/-- `emv_decode_9F27_test3` (tools/CMakeLists.txt:728). -/
example : run world [txt!"--tlv", txt!"9F27018A", txt!"--mcc-json", txt!"mcc.json"] = .ok (.exit 0 ⟨
    txt!"9F27 | Cryptogram Information Data : [1] 8A\n" ++
    txt!"  - Application Cryptogram (AC) type: Authorisation Request Cryptogram (ARQC)\n" ++
    txt!"  - Advice required\n" ++
    txt!"  - Advice: PIN Try Limit exceeded\n", []⟩) := by
  decide +kernel

/-- `emv_decode_padding_test1` (tools/CMakeLists.txt:743). -/
example : run world [txt!"--ber", txt!"701870105F2A0208409F1A0208409F15025999123456789ABCDED002DEADFEDC", txt!"--ignore-padding", txt!"--mcc-json", txt!"mcc.json"] = .ok (.exit 0 ⟨
    txt!"70 : [24]\n" ++
    txt!"  70 : [16]\n" ++
    txt!"    5F2A : [2] 08 40\n" ++
    txt!"    9F1A : [2] 08 40\n" ++
    txt!"    9F15 : [2] 59 99\n" ++
    txt!"    Padding : [1] 12\n" ++
    txt!"  Padding : [6] 34 56 78 9A BC DE\n" ++
    txt!"D0 : [2] DE AD\n" ++
    txt!"Padding : [2] FE DC\n", []⟩) := by
  decide +kernel

/-- `emv_decode_padding_test2` (tools/CMakeLists.txt:763); the code of the expression, -11, is not the one printed: its
semicolon makes two expressions of it, of which the second matches. -/
example : run world [txt!"--ber", txt!"701870105F2A0208409F1A0208409F15025999123456789ABCDED002DEADFEDC", txt!"--mcc-json", txt!"mcc.json"] = .ok (.exit 0 ⟨
    txt!"70 : [24]\n" ++
    txt!"  70 : [16]\n" ++
    txt!"    5F2A : [2] 08 40\n" ++
    txt!"    9F1A : [2] 08 40\n" ++
    txt!"    9F15 : [2] 59 99\n" ++
    txt!"BER decoding error -2 at offset 19; remaining invalid data: 12 34 56 78 9A BC DE D0 02 DE AD FE DC\n", []⟩) := by
  decide +kernel

/-- `emv_decode_padding_test3` (tools/CMakeLists.txt:780). -/
example : run world [txt!"--tlv", txt!"701870105F2A0208409F1A0208409F15025999123456789ABCDED002DEADFEDC", txt!"--ignore-padding", txt!"--mcc-json", txt!"mcc.json"] = .ok (.exit 0 ⟨
    txt!"70 | EMV Data Template : [24]\n" ++
    txt!"  70 | EMV Data Template : [16]\n" ++
    txt!"    5F2A | Transaction Currency Code : [2] 08 40 (US Dollar)\n" ++
    txt!"    9F1A | Terminal Country Code : [2] 08 40 (United States)\n" ++
    txt!"    9F15 | Merchant Category Code (MCC) : [2] 59 99 (Miscellaneous and Specialty Retail Stores)\n" ++
    txt!"    Padding : [1] 12\n" ++
    txt!"  Padding : [6] 34 56 78 9A BC DE\n" ++
    txt!"D0 : [2] DE AD\n" ++
    txt!"Padding : [2] FE DC\n", []⟩) := by
  decide +kernel

/-- `emv_decode_padding_test4` (tools/CMakeLists.txt:800); the code of the expression, -11, is not the one printed: its
semicolon makes two expressions of it, of which the second matches. -/
example : run world [txt!"--tlv", txt!"701870105F2A0208409F1A0208409F15025999123456789ABCDED002DEADFEDC", txt!"--mcc-json", txt!"mcc.json"] = .ok (.exit 0 ⟨
    txt!"70 | EMV Data Template : [24]\n" ++
    txt!"  70 | EMV Data Template : [16]\n" ++
    txt!"    5F2A | Transaction Currency Code : [2] 08 40 (US Dollar)\n" ++
    txt!"    9F1A | Terminal Country Code : [2] 08 40 (United States)\n" ++
    txt!"    9F15 | Merchant Category Code (MCC) : [2] 59 99 (Miscellaneous and Specialty Retail Stores)\n" ++
    txt!"BER decoding error -2 at offset 19; remaining invalid data: 12 34 56 78 9A BC DE D0 02 DE AD FE DC\n", []⟩) := by
  decide +kernel

end Verif.RepoTest
