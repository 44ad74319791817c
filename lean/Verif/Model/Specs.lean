import Verif.Model.FieldSpec
/-!
# The specifications shipped in `/repo/iso8583/specs.py`

Generated from the text of that file (`default`: lines 474-1392, `default_ascii`: lines
1396-2314), one entry per dictionary entry, in order.
-/

namespace Iso8583

/-- specs.py:474-1392 `default`. -/
def defaultSpec : Spec := [
  (py"h", { dataEnc := py"ascii", lenEnc := py"ascii", lenType := 0, maxLen := 0, desc := some py"Message Header" }),
  (py"t", { dataEnc := py"ascii", lenEnc := py"ascii", lenType := 0, maxLen := 4, desc := some py"Message Type" }),
  (py"p", { dataEnc := py"b", lenEnc := py"ascii", lenType := 0, maxLen := 8, desc := some py"Bitmap, Primary" }),
  (py"1", { dataEnc := py"b", lenEnc := py"ascii", lenType := 0, maxLen := 8, desc := some py"Bitmap, Secondary" }),
  (py"2", { dataEnc := py"ascii", lenEnc := py"ascii", lenType := 2, maxLen := 19, desc := some py"Primary Account Number (PAN)" }),
  (py"3", { dataEnc := py"ascii", lenEnc := py"ascii", lenType := 0, maxLen := 6, desc := some py"Processing Code" }),
  (py"4", { dataEnc := py"ascii", lenEnc := py"ascii", lenType := 0, maxLen := 12, desc := some py"Amount, Transaction" }),
  (py"5", { dataEnc := py"ascii", lenEnc := py"ascii", lenType := 0, maxLen := 12, desc := some py"Amount, Settlement" }),
  (py"6", { dataEnc := py"ascii", lenEnc := py"ascii", lenType := 0, maxLen := 12, desc := some py"Amount, Cardholder Billing" }),
  (py"7", { dataEnc := py"ascii", lenEnc := py"ascii", lenType := 0, maxLen := 10, desc := some py"Transmission Date and Time" }),
  (py"8", { dataEnc := py"ascii", lenEnc := py"ascii", lenType := 0, maxLen := 8, desc := some py"Amount, Cardholder Billing Fee" }),
  (py"9", { dataEnc := py"ascii", lenEnc := py"ascii", lenType := 0, maxLen := 8, desc := some py"Conversion Rate, Settlement" }),
  (py"10", { dataEnc := py"ascii", lenEnc := py"ascii", lenType := 0, maxLen := 8, desc := some py"Conversion Rate, Cardholder Billing" }),
  (py"11", { dataEnc := py"ascii", lenEnc := py"ascii", lenType := 0, maxLen := 6, desc := some py"System Trace Audit Number" }),
  (py"12", { dataEnc := py"ascii", lenEnc := py"ascii", lenType := 0, maxLen := 6, desc := some py"Time, Local Transaction" }),
  (py"13", { dataEnc := py"ascii", lenEnc := py"ascii", lenType := 0, maxLen := 4, desc := some py"Date, Local Transaction" }),
  (py"14", { dataEnc := py"ascii", lenEnc := py"ascii", lenType := 0, maxLen := 4, desc := some py"Date, Expiration" }),
  (py"15", { dataEnc := py"ascii", lenEnc := py"ascii", lenType := 0, maxLen := 4, desc := some py"Date, Settlement" }),
  (py"16", { dataEnc := py"ascii", lenEnc := py"ascii", lenType := 0, maxLen := 4, desc := some py"Date, Conversion" }),
  (py"17", { dataEnc := py"ascii", lenEnc := py"ascii", lenType := 0, maxLen := 4, desc := some py"Date, Capture" }),
  (py"18", { dataEnc := py"ascii", lenEnc := py"ascii", lenType := 0, maxLen := 4, desc := some py"Merchant Type" }),
  (py"19", { dataEnc := py"ascii", lenEnc := py"ascii", lenType := 0, maxLen := 3, desc := some py"Acquiring Institution Country Code" }),
  (py"20", { dataEnc := py"ascii", lenEnc := py"ascii", lenType := 0, maxLen := 3, desc := some py"PAN Country Code" }),
  (py"21", { dataEnc := py"ascii", lenEnc := py"ascii", lenType := 0, maxLen := 3, desc := some py"Forwarding Institution Country Code" }),
  (py"22", { dataEnc := py"ascii", lenEnc := py"ascii", lenType := 0, maxLen := 3, desc := some py"Point-of-Service Entry Mode" }),
  (py"23", { dataEnc := py"ascii", lenEnc := py"ascii", lenType := 0, maxLen := 3, desc := some py"PAN Sequence Number" }),
  (py"24", { dataEnc := py"ascii", lenEnc := py"ascii", lenType := 0, maxLen := 3, desc := some py"Network International ID (NII)" }),
  (py"25", { dataEnc := py"ascii", lenEnc := py"ascii", lenType := 0, maxLen := 2, desc := some py"Point-of-Service Condition Code" }),
  (py"26", { dataEnc := py"ascii", lenEnc := py"ascii", lenType := 0, maxLen := 2, desc := some py"Point-of-Service Capture Code" }),
  (py"27", { dataEnc := py"ascii", lenEnc := py"ascii", lenType := 0, maxLen := 1, desc := some py"Authorizing ID Response Length" }),
  (py"28", { dataEnc := py"ascii", lenEnc := py"ascii", lenType := 0, maxLen := 9, desc := some py"Amount, Transaction Fee" }),
  (py"29", { dataEnc := py"ascii", lenEnc := py"ascii", lenType := 0, maxLen := 9, desc := some py"Amount, Settlement Fee" }),
  (py"30", { dataEnc := py"ascii", lenEnc := py"ascii", lenType := 0, maxLen := 9, desc := some py"Amount, Transaction Processing Fee" }),
  (py"31", { dataEnc := py"ascii", lenEnc := py"ascii", lenType := 0, maxLen := 9, desc := some py"Amount, Settlement Processing Fee" }),
  (py"32", { dataEnc := py"ascii", lenEnc := py"ascii", lenType := 2, maxLen := 11, desc := some py"Acquiring Institution ID Code" }),
  (py"33", { dataEnc := py"ascii", lenEnc := py"ascii", lenType := 2, maxLen := 11, desc := some py"Forwarding Institution ID Code" }),
  (py"34", { dataEnc := py"ascii", lenEnc := py"ascii", lenType := 2, maxLen := 28, desc := some py"Primary Account Number, Extended" }),
  (py"35", { dataEnc := py"ascii", lenEnc := py"ascii", lenType := 2, maxLen := 37, desc := some py"Track 2 Data" }),
  (py"36", { dataEnc := py"ascii", lenEnc := py"ascii", lenType := 3, maxLen := 104, desc := some py"Track 3 Data" }),
  (py"37", { dataEnc := py"ascii", lenEnc := py"ascii", lenType := 0, maxLen := 12, desc := some py"Retrieval Reference Number" }),
  (py"38", { dataEnc := py"ascii", lenEnc := py"ascii", lenType := 0, maxLen := 6, desc := some py"Authorization ID Response" }),
  (py"39", { dataEnc := py"ascii", lenEnc := py"ascii", lenType := 0, maxLen := 2, desc := some py"Response Code" }),
  (py"40", { dataEnc := py"ascii", lenEnc := py"ascii", lenType := 0, maxLen := 3, desc := some py"Service Restriction Code" }),
  (py"41", { dataEnc := py"ascii", lenEnc := py"ascii", lenType := 0, maxLen := 8, desc := some py"Card Acceptor Terminal ID" }),
  (py"42", { dataEnc := py"ascii", lenEnc := py"ascii", lenType := 0, maxLen := 15, desc := some py"Card Acceptor ID Code" }),
  (py"43", { dataEnc := py"ascii", lenEnc := py"ascii", lenType := 0, maxLen := 40, desc := some py"Card Acceptor Name/Location" }),
  (py"44", { dataEnc := py"ascii", lenEnc := py"ascii", lenType := 2, maxLen := 25, desc := some py"Additional Response Data" }),
  (py"45", { dataEnc := py"ascii", lenEnc := py"ascii", lenType := 2, maxLen := 76, desc := some py"Track 1 Data" }),
  (py"46", { dataEnc := py"ascii", lenEnc := py"ascii", lenType := 3, maxLen := 999, desc := some py"Additional Data - ISO" }),
  (py"47", { dataEnc := py"ascii", lenEnc := py"ascii", lenType := 3, maxLen := 999, desc := some py"Additional Data - National" }),
  (py"48", { dataEnc := py"ascii", lenEnc := py"ascii", lenType := 3, maxLen := 999, desc := some py"Additional Data - Private" }),
  (py"49", { dataEnc := py"ascii", lenEnc := py"ascii", lenType := 0, maxLen := 3, desc := some py"Currency Code, Transaction" }),
  (py"50", { dataEnc := py"ascii", lenEnc := py"ascii", lenType := 0, maxLen := 3, desc := some py"Currency Code, Settlement" }),
  (py"51", { dataEnc := py"ascii", lenEnc := py"ascii", lenType := 0, maxLen := 3, desc := some py"Currency Code, Cardholder Billing" }),
  (py"52", { dataEnc := py"b", lenEnc := py"ascii", lenType := 0, maxLen := 8, desc := some py"PIN" }),
  (py"53", { dataEnc := py"ascii", lenEnc := py"ascii", lenType := 0, maxLen := 16, desc := some py"Security-Related Control Information" }),
  (py"54", { dataEnc := py"ascii", lenEnc := py"ascii", lenType := 3, maxLen := 240, desc := some py"Additional Amounts" }),
  (py"55", { dataEnc := py"b", lenEnc := py"ascii", lenType := 3, maxLen := 255, desc := some py"ICC data" }),
  (py"56", { dataEnc := py"ascii", lenEnc := py"ascii", lenType := 3, maxLen := 999, desc := some py"Reserved ISO" }),
  (py"57", { dataEnc := py"ascii", lenEnc := py"ascii", lenType := 3, maxLen := 999, desc := some py"Reserved National" }),
  (py"58", { dataEnc := py"ascii", lenEnc := py"ascii", lenType := 3, maxLen := 999, desc := some py"Reserved National" }),
  (py"59", { dataEnc := py"ascii", lenEnc := py"ascii", lenType := 3, maxLen := 999, desc := some py"Reserved National" }),
  (py"60", { dataEnc := py"ascii", lenEnc := py"ascii", lenType := 3, maxLen := 999, desc := some py"Reserved National" }),
  (py"61", { dataEnc := py"ascii", lenEnc := py"ascii", lenType := 3, maxLen := 999, desc := some py"Reserved Private" }),
  (py"62", { dataEnc := py"ascii", lenEnc := py"ascii", lenType := 3, maxLen := 999, desc := some py"Reserved Private" }),
  (py"63", { dataEnc := py"ascii", lenEnc := py"ascii", lenType := 3, maxLen := 999, desc := some py"Reserved Private" }),
  (py"64", { dataEnc := py"b", lenEnc := py"ascii", lenType := 0, maxLen := 8, desc := some py"MAC" }),
  (py"65", { dataEnc := py"b", lenEnc := py"ascii", lenType := 0, maxLen := 8, desc := some py"Bitmap, Extended" }),
  (py"66", { dataEnc := py"ascii", lenEnc := py"ascii", lenType := 0, maxLen := 1, desc := some py"Settlement Code" }),
  (py"67", { dataEnc := py"ascii", lenEnc := py"ascii", lenType := 0, maxLen := 2, desc := some py"Extended Payment Code" }),
  (py"68", { dataEnc := py"ascii", lenEnc := py"ascii", lenType := 0, maxLen := 3, desc := some py"Receiving Institution Country Code" }),
  (py"69", { dataEnc := py"ascii", lenEnc := py"ascii", lenType := 0, maxLen := 3, desc := some py"Settlement Institution Country Code" }),
  (py"70", { dataEnc := py"ascii", lenEnc := py"ascii", lenType := 0, maxLen := 3, desc := some py"Network Management Information Code" }),
  (py"71", { dataEnc := py"ascii", lenEnc := py"ascii", lenType := 0, maxLen := 4, desc := some py"Message Number" }),
  (py"72", { dataEnc := py"ascii", lenEnc := py"ascii", lenType := 0, maxLen := 4, desc := some py"Message Number, Last" }),
  (py"73", { dataEnc := py"ascii", lenEnc := py"ascii", lenType := 0, maxLen := 6, desc := some py"Date, Action" }),
  (py"74", { dataEnc := py"ascii", lenEnc := py"ascii", lenType := 0, maxLen := 10, desc := some py"Credits, Number" }),
  (py"75", { dataEnc := py"ascii", lenEnc := py"ascii", lenType := 0, maxLen := 10, desc := some py"Credits, Reversal Number" }),
  (py"76", { dataEnc := py"ascii", lenEnc := py"ascii", lenType := 0, maxLen := 10, desc := some py"Debits, Number" }),
  (py"77", { dataEnc := py"ascii", lenEnc := py"ascii", lenType := 0, maxLen := 10, desc := some py"Debits, Reversal Number" }),
  (py"78", { dataEnc := py"ascii", lenEnc := py"ascii", lenType := 0, maxLen := 10, desc := some py"Transfer, Number" }),
  (py"79", { dataEnc := py"ascii", lenEnc := py"ascii", lenType := 0, maxLen := 10, desc := some py"Transfer, Reversal Number" }),
  (py"80", { dataEnc := py"ascii", lenEnc := py"ascii", lenType := 0, maxLen := 10, desc := some py"Inquiries, Number" }),
  (py"81", { dataEnc := py"ascii", lenEnc := py"ascii", lenType := 0, maxLen := 10, desc := some py"Authorizations, Number" }),
  (py"82", { dataEnc := py"ascii", lenEnc := py"ascii", lenType := 0, maxLen := 12, desc := some py"Credits, Processing Fee Amount" }),
  (py"83", { dataEnc := py"ascii", lenEnc := py"ascii", lenType := 0, maxLen := 12, desc := some py"Credits, Transaction Fee Amount" }),
  (py"84", { dataEnc := py"ascii", lenEnc := py"ascii", lenType := 0, maxLen := 12, desc := some py"Debits, Processing Fee Amount" }),
  (py"85", { dataEnc := py"ascii", lenEnc := py"ascii", lenType := 0, maxLen := 12, desc := some py"Debits, Transaction Fee Amount" }),
  (py"86", { dataEnc := py"ascii", lenEnc := py"ascii", lenType := 0, maxLen := 16, desc := some py"Credits, Amount" }),
  (py"87", { dataEnc := py"ascii", lenEnc := py"ascii", lenType := 0, maxLen := 16, desc := some py"Credits, Reversal Amount" }),
  (py"88", { dataEnc := py"ascii", lenEnc := py"ascii", lenType := 0, maxLen := 16, desc := some py"Debits, Amount" }),
  (py"89", { dataEnc := py"ascii", lenEnc := py"ascii", lenType := 0, maxLen := 16, desc := some py"Debits, Reversal Amount" }),
  (py"90", { dataEnc := py"ascii", lenEnc := py"ascii", lenType := 0, maxLen := 42, desc := some py"Original Data Elements" }),
  (py"91", { dataEnc := py"ascii", lenEnc := py"ascii", lenType := 0, maxLen := 1, desc := some py"File Update Code" }),
  (py"92", { dataEnc := py"ascii", lenEnc := py"ascii", lenType := 0, maxLen := 2, desc := some py"File Security Code" }),
  (py"93", { dataEnc := py"ascii", lenEnc := py"ascii", lenType := 0, maxLen := 5, desc := some py"Response Indicator" }),
  (py"94", { dataEnc := py"ascii", lenEnc := py"ascii", lenType := 0, maxLen := 7, desc := some py"Service Indicator" }),
  (py"95", { dataEnc := py"ascii", lenEnc := py"ascii", lenType := 0, maxLen := 42, desc := some py"Replacement Amounts" }),
  (py"96", { dataEnc := py"b", lenEnc := py"ascii", lenType := 0, maxLen := 8, desc := some py"Message Security Code" }),
  (py"97", { dataEnc := py"ascii", lenEnc := py"ascii", lenType := 0, maxLen := 17, desc := some py"Amount, Net Settlement" }),
  (py"98", { dataEnc := py"ascii", lenEnc := py"ascii", lenType := 0, maxLen := 25, desc := some py"Payee" }),
  (py"99", { dataEnc := py"ascii", lenEnc := py"ascii", lenType := 2, maxLen := 11, desc := some py"Settlement Institution ID Code" }),
  (py"100", { dataEnc := py"ascii", lenEnc := py"ascii", lenType := 2, maxLen := 11, desc := some py"Receiving Institution ID Code" }),
  (py"101", { dataEnc := py"ascii", lenEnc := py"ascii", lenType := 2, maxLen := 17, desc := some py"File Name" }),
  (py"102", { dataEnc := py"ascii", lenEnc := py"ascii", lenType := 2, maxLen := 28, desc := some py"Account ID 1" }),
  (py"103", { dataEnc := py"ascii", lenEnc := py"ascii", lenType := 2, maxLen := 28, desc := some py"Account ID 2" }),
  (py"104", { dataEnc := py"ascii", lenEnc := py"ascii", lenType := 3, maxLen := 100, desc := some py"Transaction Description" }),
  (py"105", { dataEnc := py"ascii", lenEnc := py"ascii", lenType := 3, maxLen := 999, desc := some py"Reserved for ISO Use" }),
  (py"106", { dataEnc := py"ascii", lenEnc := py"ascii", lenType := 3, maxLen := 999, desc := some py"Reserved for ISO Use" }),
  (py"107", { dataEnc := py"ascii", lenEnc := py"ascii", lenType := 3, maxLen := 999, desc := some py"Reserved for ISO Use" }),
  (py"108", { dataEnc := py"ascii", lenEnc := py"ascii", lenType := 3, maxLen := 999, desc := some py"Reserved for ISO Use" }),
  (py"109", { dataEnc := py"ascii", lenEnc := py"ascii", lenType := 3, maxLen := 999, desc := some py"Reserved for ISO Use" }),
  (py"110", { dataEnc := py"ascii", lenEnc := py"ascii", lenType := 3, maxLen := 999, desc := some py"Reserved for ISO Use" }),
  (py"111", { dataEnc := py"ascii", lenEnc := py"ascii", lenType := 3, maxLen := 999, desc := some py"Reserved for ISO Use" }),
  (py"112", { dataEnc := py"ascii", lenEnc := py"ascii", lenType := 3, maxLen := 999, desc := some py"Reserved for National Use" }),
  (py"113", { dataEnc := py"ascii", lenEnc := py"ascii", lenType := 3, maxLen := 999, desc := some py"Reserved for National Use" }),
  (py"114", { dataEnc := py"ascii", lenEnc := py"ascii", lenType := 3, maxLen := 999, desc := some py"Reserved for National Use" }),
  (py"115", { dataEnc := py"ascii", lenEnc := py"ascii", lenType := 3, maxLen := 999, desc := some py"Reserved for National Use" }),
  (py"116", { dataEnc := py"ascii", lenEnc := py"ascii", lenType := 3, maxLen := 999, desc := some py"Reserved for National Use" }),
  (py"117", { dataEnc := py"ascii", lenEnc := py"ascii", lenType := 3, maxLen := 999, desc := some py"Reserved for National Use" }),
  (py"118", { dataEnc := py"ascii", lenEnc := py"ascii", lenType := 3, maxLen := 999, desc := some py"Reserved for National Use" }),
  (py"119", { dataEnc := py"ascii", lenEnc := py"ascii", lenType := 3, maxLen := 999, desc := some py"Reserved for National Use" }),
  (py"120", { dataEnc := py"ascii", lenEnc := py"ascii", lenType := 3, maxLen := 999, desc := some py"Reserved for Private Use" }),
  (py"121", { dataEnc := py"ascii", lenEnc := py"ascii", lenType := 3, maxLen := 999, desc := some py"Reserved for Private Use" }),
  (py"122", { dataEnc := py"ascii", lenEnc := py"ascii", lenType := 3, maxLen := 999, desc := some py"Reserved for Private Use" }),
  (py"123", { dataEnc := py"ascii", lenEnc := py"ascii", lenType := 3, maxLen := 999, desc := some py"Reserved for Private Use" }),
  (py"124", { dataEnc := py"ascii", lenEnc := py"ascii", lenType := 3, maxLen := 999, desc := some py"Reserved for Private Use" }),
  (py"125", { dataEnc := py"ascii", lenEnc := py"ascii", lenType := 3, maxLen := 999, desc := some py"Reserved for Private Use" }),
  (py"126", { dataEnc := py"ascii", lenEnc := py"ascii", lenType := 3, maxLen := 999, desc := some py"Reserved for Private Use" }),
  (py"127", { dataEnc := py"ascii", lenEnc := py"ascii", lenType := 3, maxLen := 999, desc := some py"Reserved for Private Use" }),
  (py"128", { dataEnc := py"b", lenEnc := py"ascii", lenType := 0, maxLen := 8, desc := some py"MAC" })
]

/-- specs.py:1396-2314 `default_ascii`. -/
def defaultAsciiSpec : Spec := [
  (py"h", { dataEnc := py"ascii", lenEnc := py"ascii", lenType := 0, maxLen := 0, desc := some py"Message Header" }),
  (py"t", { dataEnc := py"ascii", lenEnc := py"ascii", lenType := 0, maxLen := 4, desc := some py"Message Type" }),
  (py"p", { dataEnc := py"ascii", lenEnc := py"ascii", lenType := 0, maxLen := 16, desc := some py"Bitmap, Primary" }),
  (py"1", { dataEnc := py"ascii", lenEnc := py"ascii", lenType := 0, maxLen := 16, desc := some py"Bitmap, Secondary" }),
  (py"2", { dataEnc := py"ascii", lenEnc := py"ascii", lenType := 2, maxLen := 19, desc := some py"Primary Account Number (PAN)" }),
  (py"3", { dataEnc := py"ascii", lenEnc := py"ascii", lenType := 0, maxLen := 6, desc := some py"Processing Code" }),
  (py"4", { dataEnc := py"ascii", lenEnc := py"ascii", lenType := 0, maxLen := 12, desc := some py"Amount, Transaction" }),
  (py"5", { dataEnc := py"ascii", lenEnc := py"ascii", lenType := 0, maxLen := 12, desc := some py"Amount, Settlement" }),
  (py"6", { dataEnc := py"ascii", lenEnc := py"ascii", lenType := 0, maxLen := 12, desc := some py"Amount, Cardholder Billing" }),
  (py"7", { dataEnc := py"ascii", lenEnc := py"ascii", lenType := 0, maxLen := 10, desc := some py"Transmission Date and Time" }),
  (py"8", { dataEnc := py"ascii", lenEnc := py"ascii", lenType := 0, maxLen := 8, desc := some py"Amount, Cardholder Billing Fee" }),
  (py"9", { dataEnc := py"ascii", lenEnc := py"ascii", lenType := 0, maxLen := 8, desc := some py"Conversion Rate, Settlement" }),
  (py"10", { dataEnc := py"ascii", lenEnc := py"ascii", lenType := 0, maxLen := 8, desc := some py"Conversion Rate, Cardholder Billing" }),
  (py"11", { dataEnc := py"ascii", lenEnc := py"ascii", lenType := 0, maxLen := 6, desc := some py"System Trace Audit Number" }),
  (py"12", { dataEnc := py"ascii", lenEnc := py"ascii", lenType := 0, maxLen := 6, desc := some py"Time, Local Transaction" }),
  (py"13", { dataEnc := py"ascii", lenEnc := py"ascii", lenType := 0, maxLen := 4, desc := some py"Date, Local Transaction" }),
  (py"14", { dataEnc := py"ascii", lenEnc := py"ascii", lenType := 0, maxLen := 4, desc := some py"Date, Expiration" }),
  (py"15", { dataEnc := py"ascii", lenEnc := py"ascii", lenType := 0, maxLen := 4, desc := some py"Date, Settlement" }),
  (py"16", { dataEnc := py"ascii", lenEnc := py"ascii", lenType := 0, maxLen := 4, desc := some py"Date, Conversion" }),
  (py"17", { dataEnc := py"ascii", lenEnc := py"ascii", lenType := 0, maxLen := 4, desc := some py"Date, Capture" }),
  (py"18", { dataEnc := py"ascii", lenEnc := py"ascii", lenType := 0, maxLen := 4, desc := some py"Merchant Type" }),
  (py"19", { dataEnc := py"ascii", lenEnc := py"ascii", lenType := 0, maxLen := 3, desc := some py"Acquiring Institution Country Code" }),
  (py"20", { dataEnc := py"ascii", lenEnc := py"ascii", lenType := 0, maxLen := 3, desc := some py"PAN Country Code" }),
  (py"21", { dataEnc := py"ascii", lenEnc := py"ascii", lenType := 0, maxLen := 3, desc := some py"Forwarding Institution Country Code" }),
  (py"22", { dataEnc := py"ascii", lenEnc := py"ascii", lenType := 0, maxLen := 3, desc := some py"Point-of-Service Entry Mode" }),
  (py"23", { dataEnc := py"ascii", lenEnc := py"ascii", lenType := 0, maxLen := 3, desc := some py"PAN Sequence Number" }),
  (py"24", { dataEnc := py"ascii", lenEnc := py"ascii", lenType := 0, maxLen := 3, desc := some py"Network International ID (NII)" }),
  (py"25", { dataEnc := py"ascii", lenEnc := py"ascii", lenType := 0, maxLen := 2, desc := some py"Point-of-Service Condition Code" }),
  (py"26", { dataEnc := py"ascii", lenEnc := py"ascii", lenType := 0, maxLen := 2, desc := some py"Point-of-Service Capture Code" }),
  (py"27", { dataEnc := py"ascii", lenEnc := py"ascii", lenType := 0, maxLen := 1, desc := some py"Authorizing ID Response Length" }),
  (py"28", { dataEnc := py"ascii", lenEnc := py"ascii", lenType := 0, maxLen := 9, desc := some py"Amount, Transaction Fee" }),
  (py"29", { dataEnc := py"ascii", lenEnc := py"ascii", lenType := 0, maxLen := 9, desc := some py"Amount, Settlement Fee" }),
  (py"30", { dataEnc := py"ascii", lenEnc := py"ascii", lenType := 0, maxLen := 9, desc := some py"Amount, Transaction Processing Fee" }),
  (py"31", { dataEnc := py"ascii", lenEnc := py"ascii", lenType := 0, maxLen := 9, desc := some py"Amount, Settlement Processing Fee" }),
  (py"32", { dataEnc := py"ascii", lenEnc := py"ascii", lenType := 2, maxLen := 11, desc := some py"Acquiring Institution ID Code" }),
  (py"33", { dataEnc := py"ascii", lenEnc := py"ascii", lenType := 2, maxLen := 11, desc := some py"Forwarding Institution ID Code" }),
  (py"34", { dataEnc := py"ascii", lenEnc := py"ascii", lenType := 2, maxLen := 28, desc := some py"Primary Account Number, Extended" }),
  (py"35", { dataEnc := py"ascii", lenEnc := py"ascii", lenType := 2, maxLen := 37, desc := some py"Track 2 Data" }),
  (py"36", { dataEnc := py"ascii", lenEnc := py"ascii", lenType := 3, maxLen := 104, desc := some py"Track 3 Data" }),
  (py"37", { dataEnc := py"ascii", lenEnc := py"ascii", lenType := 0, maxLen := 12, desc := some py"Retrieval Reference Number" }),
  (py"38", { dataEnc := py"ascii", lenEnc := py"ascii", lenType := 0, maxLen := 6, desc := some py"Authorization ID Response" }),
  (py"39", { dataEnc := py"ascii", lenEnc := py"ascii", lenType := 0, maxLen := 2, desc := some py"Response Code" }),
  (py"40", { dataEnc := py"ascii", lenEnc := py"ascii", lenType := 0, maxLen := 3, desc := some py"Service Restriction Code" }),
  (py"41", { dataEnc := py"ascii", lenEnc := py"ascii", lenType := 0, maxLen := 8, desc := some py"Card Acceptor Terminal ID" }),
  (py"42", { dataEnc := py"ascii", lenEnc := py"ascii", lenType := 0, maxLen := 15, desc := some py"Card Acceptor ID Code" }),
  (py"43", { dataEnc := py"ascii", lenEnc := py"ascii", lenType := 0, maxLen := 40, desc := some py"Card Acceptor Name/Location" }),
  (py"44", { dataEnc := py"ascii", lenEnc := py"ascii", lenType := 2, maxLen := 25, desc := some py"Additional Response Data" }),
  (py"45", { dataEnc := py"ascii", lenEnc := py"ascii", lenType := 2, maxLen := 76, desc := some py"Track 1 Data" }),
  (py"46", { dataEnc := py"ascii", lenEnc := py"ascii", lenType := 3, maxLen := 999, desc := some py"Additional Data - ISO" }),
  (py"47", { dataEnc := py"ascii", lenEnc := py"ascii", lenType := 3, maxLen := 999, desc := some py"Additional Data - National" }),
  (py"48", { dataEnc := py"ascii", lenEnc := py"ascii", lenType := 3, maxLen := 999, desc := some py"Additional Data - Private" }),
  (py"49", { dataEnc := py"ascii", lenEnc := py"ascii", lenType := 0, maxLen := 3, desc := some py"Currency Code, Transaction" }),
  (py"50", { dataEnc := py"ascii", lenEnc := py"ascii", lenType := 0, maxLen := 3, desc := some py"Currency Code, Settlement" }),
  (py"51", { dataEnc := py"ascii", lenEnc := py"ascii", lenType := 0, maxLen := 3, desc := some py"Currency Code, Cardholder Billing" }),
  (py"52", { dataEnc := py"ascii", lenEnc := py"ascii", lenType := 0, maxLen := 16, desc := some py"PIN" }),
  (py"53", { dataEnc := py"ascii", lenEnc := py"ascii", lenType := 0, maxLen := 16, desc := some py"Security-Related Control Information" }),
  (py"54", { dataEnc := py"ascii", lenEnc := py"ascii", lenType := 3, maxLen := 240, desc := some py"Additional Amounts" }),
  (py"55", { dataEnc := py"ascii", lenEnc := py"ascii", lenType := 3, maxLen := 510, desc := some py"ICC data" }),
  (py"56", { dataEnc := py"ascii", lenEnc := py"ascii", lenType := 3, maxLen := 999, desc := some py"Reserved ISO" }),
  (py"57", { dataEnc := py"ascii", lenEnc := py"ascii", lenType := 3, maxLen := 999, desc := some py"Reserved National" }),
  (py"58", { dataEnc := py"ascii", lenEnc := py"ascii", lenType := 3, maxLen := 999, desc := some py"Reserved National" }),
  (py"59", { dataEnc := py"ascii", lenEnc := py"ascii", lenType := 3, maxLen := 999, desc := some py"Reserved National" }),
  (py"60", { dataEnc := py"ascii", lenEnc := py"ascii", lenType := 3, maxLen := 999, desc := some py"Reserved National" }),
  (py"61", { dataEnc := py"ascii", lenEnc := py"ascii", lenType := 3, maxLen := 999, desc := some py"Reserved Private" }),
  (py"62", { dataEnc := py"ascii", lenEnc := py"ascii", lenType := 3, maxLen := 999, desc := some py"Reserved Private" }),
  (py"63", { dataEnc := py"ascii", lenEnc := py"ascii", lenType := 3, maxLen := 999, desc := some py"Reserved Private" }),
  (py"64", { dataEnc := py"ascii", lenEnc := py"ascii", lenType := 0, maxLen := 16, desc := some py"MAC" }),
  (py"65", { dataEnc := py"ascii", lenEnc := py"ascii", lenType := 0, maxLen := 16, desc := some py"Bitmap, Extended" }),
  (py"66", { dataEnc := py"ascii", lenEnc := py"ascii", lenType := 0, maxLen := 1, desc := some py"Settlement Code" }),
  (py"67", { dataEnc := py"ascii", lenEnc := py"ascii", lenType := 0, maxLen := 2, desc := some py"Extended Payment Code" }),
  (py"68", { dataEnc := py"ascii", lenEnc := py"ascii", lenType := 0, maxLen := 3, desc := some py"Receiving Institution Country Code" }),
  (py"69", { dataEnc := py"ascii", lenEnc := py"ascii", lenType := 0, maxLen := 3, desc := some py"Settlement Institution Country Code" }),
  (py"70", { dataEnc := py"ascii", lenEnc := py"ascii", lenType := 0, maxLen := 3, desc := some py"Network Management Information Code" }),
  (py"71", { dataEnc := py"ascii", lenEnc := py"ascii", lenType := 0, maxLen := 4, desc := some py"Message Number" }),
  (py"72", { dataEnc := py"ascii", lenEnc := py"ascii", lenType := 0, maxLen := 4, desc := some py"Message Number, Last" }),
  (py"73", { dataEnc := py"ascii", lenEnc := py"ascii", lenType := 0, maxLen := 6, desc := some py"Date, Action" }),
  (py"74", { dataEnc := py"ascii", lenEnc := py"ascii", lenType := 0, maxLen := 10, desc := some py"Credits, Number" }),
  (py"75", { dataEnc := py"ascii", lenEnc := py"ascii", lenType := 0, maxLen := 10, desc := some py"Credits, Reversal Number" }),
  (py"76", { dataEnc := py"ascii", lenEnc := py"ascii", lenType := 0, maxLen := 10, desc := some py"Debits, Number" }),
  (py"77", { dataEnc := py"ascii", lenEnc := py"ascii", lenType := 0, maxLen := 10, desc := some py"Debits, Reversal Number" }),
  (py"78", { dataEnc := py"ascii", lenEnc := py"ascii", lenType := 0, maxLen := 10, desc := some py"Transfer, Number" }),
  (py"79", { dataEnc := py"ascii", lenEnc := py"ascii", lenType := 0, maxLen := 10, desc := some py"Transfer, Reversal Number" }),
  (py"80", { dataEnc := py"ascii", lenEnc := py"ascii", lenType := 0, maxLen := 10, desc := some py"Inquiries, Number" }),
  (py"81", { dataEnc := py"ascii", lenEnc := py"ascii", lenType := 0, maxLen := 10, desc := some py"Authorizations, Number" }),
  (py"82", { dataEnc := py"ascii", lenEnc := py"ascii", lenType := 0, maxLen := 12, desc := some py"Credits, Processing Fee Amount" }),
  (py"83", { dataEnc := py"ascii", lenEnc := py"ascii", lenType := 0, maxLen := 12, desc := some py"Credits, Transaction Fee Amount" }),
  (py"84", { dataEnc := py"ascii", lenEnc := py"ascii", lenType := 0, maxLen := 12, desc := some py"Debits, Processing Fee Amount" }),
  (py"85", { dataEnc := py"ascii", lenEnc := py"ascii", lenType := 0, maxLen := 12, desc := some py"Debits, Transaction Fee Amount" }),
  (py"86", { dataEnc := py"ascii", lenEnc := py"ascii", lenType := 0, maxLen := 16, desc := some py"Credits, Amount" }),
  (py"87", { dataEnc := py"ascii", lenEnc := py"ascii", lenType := 0, maxLen := 16, desc := some py"Credits, Reversal Amount" }),
  (py"88", { dataEnc := py"ascii", lenEnc := py"ascii", lenType := 0, maxLen := 16, desc := some py"Debits, Amount" }),
  (py"89", { dataEnc := py"ascii", lenEnc := py"ascii", lenType := 0, maxLen := 16, desc := some py"Debits, Reversal Amount" }),
  (py"90", { dataEnc := py"ascii", lenEnc := py"ascii", lenType := 0, maxLen := 42, desc := some py"Original Data Elements" }),
  (py"91", { dataEnc := py"ascii", lenEnc := py"ascii", lenType := 0, maxLen := 1, desc := some py"File Update Code" }),
  (py"92", { dataEnc := py"ascii", lenEnc := py"ascii", lenType := 0, maxLen := 2, desc := some py"File Security Code" }),
  (py"93", { dataEnc := py"ascii", lenEnc := py"ascii", lenType := 0, maxLen := 5, desc := some py"Response Indicator" }),
  (py"94", { dataEnc := py"ascii", lenEnc := py"ascii", lenType := 0, maxLen := 7, desc := some py"Service Indicator" }),
  (py"95", { dataEnc := py"ascii", lenEnc := py"ascii", lenType := 0, maxLen := 42, desc := some py"Replacement Amounts" }),
  (py"96", { dataEnc := py"ascii", lenEnc := py"ascii", lenType := 0, maxLen := 16, desc := some py"Message Security Code" }),
  (py"97", { dataEnc := py"ascii", lenEnc := py"ascii", lenType := 0, maxLen := 17, desc := some py"Amount, Net Settlement" }),
  (py"98", { dataEnc := py"ascii", lenEnc := py"ascii", lenType := 0, maxLen := 25, desc := some py"Payee" }),
  (py"99", { dataEnc := py"ascii", lenEnc := py"ascii", lenType := 2, maxLen := 11, desc := some py"Settlement Institution ID Code" }),
  (py"100", { dataEnc := py"ascii", lenEnc := py"ascii", lenType := 2, maxLen := 11, desc := some py"Receiving Institution ID Code" }),
  (py"101", { dataEnc := py"ascii", lenEnc := py"ascii", lenType := 2, maxLen := 17, desc := some py"File Name" }),
  (py"102", { dataEnc := py"ascii", lenEnc := py"ascii", lenType := 2, maxLen := 28, desc := some py"Account ID 1" }),
  (py"103", { dataEnc := py"ascii", lenEnc := py"ascii", lenType := 2, maxLen := 28, desc := some py"Account ID 2" }),
  (py"104", { dataEnc := py"ascii", lenEnc := py"ascii", lenType := 3, maxLen := 100, desc := some py"Transaction Description" }),
  (py"105", { dataEnc := py"ascii", lenEnc := py"ascii", lenType := 3, maxLen := 999, desc := some py"Reserved for ISO Use" }),
  (py"106", { dataEnc := py"ascii", lenEnc := py"ascii", lenType := 3, maxLen := 999, desc := some py"Reserved for ISO Use" }),
  (py"107", { dataEnc := py"ascii", lenEnc := py"ascii", lenType := 3, maxLen := 999, desc := some py"Reserved for ISO Use" }),
  (py"108", { dataEnc := py"ascii", lenEnc := py"ascii", lenType := 3, maxLen := 999, desc := some py"Reserved for ISO Use" }),
  (py"109", { dataEnc := py"ascii", lenEnc := py"ascii", lenType := 3, maxLen := 999, desc := some py"Reserved for ISO Use" }),
  (py"110", { dataEnc := py"ascii", lenEnc := py"ascii", lenType := 3, maxLen := 999, desc := some py"Reserved for ISO Use" }),
  (py"111", { dataEnc := py"ascii", lenEnc := py"ascii", lenType := 3, maxLen := 999, desc := some py"Reserved for ISO Use" }),
  (py"112", { dataEnc := py"ascii", lenEnc := py"ascii", lenType := 3, maxLen := 999, desc := some py"Reserved for National Use" }),
  (py"113", { dataEnc := py"ascii", lenEnc := py"ascii", lenType := 3, maxLen := 999, desc := some py"Reserved for National Use" }),
  (py"114", { dataEnc := py"ascii", lenEnc := py"ascii", lenType := 3, maxLen := 999, desc := some py"Reserved for National Use" }),
  (py"115", { dataEnc := py"ascii", lenEnc := py"ascii", lenType := 3, maxLen := 999, desc := some py"Reserved for National Use" }),
  (py"116", { dataEnc := py"ascii", lenEnc := py"ascii", lenType := 3, maxLen := 999, desc := some py"Reserved for National Use" }),
  (py"117", { dataEnc := py"ascii", lenEnc := py"ascii", lenType := 3, maxLen := 999, desc := some py"Reserved for National Use" }),
  (py"118", { dataEnc := py"ascii", lenEnc := py"ascii", lenType := 3, maxLen := 999, desc := some py"Reserved for National Use" }),
  (py"119", { dataEnc := py"ascii", lenEnc := py"ascii", lenType := 3, maxLen := 999, desc := some py"Reserved for National Use" }),
  (py"120", { dataEnc := py"ascii", lenEnc := py"ascii", lenType := 3, maxLen := 999, desc := some py"Reserved for Private Use" }),
  (py"121", { dataEnc := py"ascii", lenEnc := py"ascii", lenType := 3, maxLen := 999, desc := some py"Reserved for Private Use" }),
  (py"122", { dataEnc := py"ascii", lenEnc := py"ascii", lenType := 3, maxLen := 999, desc := some py"Reserved for Private Use" }),
  (py"123", { dataEnc := py"ascii", lenEnc := py"ascii", lenType := 3, maxLen := 999, desc := some py"Reserved for Private Use" }),
  (py"124", { dataEnc := py"ascii", lenEnc := py"ascii", lenType := 3, maxLen := 999, desc := some py"Reserved for Private Use" }),
  (py"125", { dataEnc := py"ascii", lenEnc := py"ascii", lenType := 3, maxLen := 999, desc := some py"Reserved for Private Use" }),
  (py"126", { dataEnc := py"ascii", lenEnc := py"ascii", lenType := 3, maxLen := 999, desc := some py"Reserved for Private Use" }),
  (py"127", { dataEnc := py"ascii", lenEnc := py"ascii", lenType := 3, maxLen := 999, desc := some py"Reserved for Private Use" }),
  (py"128", { dataEnc := py"ascii", lenEnc := py"ascii", lenType := 0, maxLen := 16, desc := some py"MAC" })
]

end Iso8583
