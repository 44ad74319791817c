import Verif.Source.Syntax
/-!
# specs.py as data

Written by `tools/gen_source.py` from the text of `/repo/iso8583`; do not edit.
-/

namespace Iso8583.Src

/-- specs.py:474-1392. -/
def specs1 : Stmt :=
  .assign [(.name .default)] (.dict [(.str py"h"), (.str py"t"), (.str py"p"), (.str py"1"), (.str py"2"), (.str py"3"), (.str py"4"), (.str py"5"), (.str py"6"), (.str py"7"), (.str py"8"), (.str py"9"), (.str py"10"), (.str py"11"), (.str py"12"), (.str py"13"), (.str py"14"), (.str py"15"), (.str py"16"), (.str py"17"), (.str py"18"), (.str py"19"), (.str py"20"), (.str py"21"), (.str py"22"), (.str py"23"), (.str py"24"), (.str py"25"), (.str py"26"), (.str py"27"), (.str py"28"), (.str py"29"), (.str py"30"), (.str py"31"), (.str py"32"), (.str py"33"), (.str py"34"), (.str py"35"), (.str py"36"), (.str py"37"), (.str py"38"), (.str py"39"), (.str py"40"), (.str py"41"), (.str py"42"), (.str py"43"), (.str py"44"), (.str py"45"), (.str py"46"), (.str py"47"), (.str py"48"), (.str py"49"), (.str py"50"), (.str py"51"), (.str py"52"), (.str py"53"), (.str py"54"), (.str py"55"), (.str py"56"), (.str py"57"), (.str py"58"), (.str py"59"), (.str py"60"), (.str py"61"), (.str py"62"), (.str py"63"), (.str py"64"), (.str py"65"), (.str py"66"), (.str py"67"), (.str py"68"), (.str py"69"), (.str py"70"), (.str py"71"), (.str py"72"), (.str py"73"), (.str py"74"), (.str py"75"), (.str py"76"), (.str py"77"), (.str py"78"), (.str py"79"), (.str py"80"), (.str py"81"), (.str py"82"), (.str py"83"), (.str py"84"), (.str py"85"), (.str py"86"), (.str py"87"), (.str py"88"), (.str py"89"), (.str py"90"), (.str py"91"), (.str py"92"), (.str py"93"), (.str py"94"), (.str py"95"), (.str py"96"), (.str py"97"), (.str py"98"), (.str py"99"), (.str py"100"), (.str py"101"), (.str py"102"), (.str py"103"), (.str py"104"), (.str py"105"), (.str py"106"), (.str py"107"), (.str py"108"), (.str py"109"), (.str py"110"), (.str py"111"), (.str py"112"), (.str py"113"), (.str py"114"), (.str py"115"), (.str py"116"), (.str py"117"), (.str py"118"), (.str py"119"), (.str py"120"), (.str py"121"), (.str py"122"), (.str py"123"), (.str py"124"), (.str py"125"), (.str py"126"), (.str py"127"), (.str py"128")] [
    (.dict [(.str py"data_enc"), (.str py"len_enc"), (.str py"len_type"), (.str py"max_len"), (.str py"desc")] [(.str py"ascii"), (.str py"ascii"), (.int 0), (.int 0), (.str py"Message Header")]),
    (.dict [(.str py"data_enc"), (.str py"len_enc"), (.str py"len_type"), (.str py"max_len"), (.str py"desc")] [(.str py"ascii"), (.str py"ascii"), (.int 0), (.int 4), (.str py"Message Type")]),
    (.dict [(.str py"data_enc"), (.str py"len_enc"), (.str py"len_type"), (.str py"max_len"), (.str py"desc")] [(.str py"b"), (.str py"ascii"), (.int 0), (.int 8), (.str py"Bitmap, Primary")]),
    (.dict [(.str py"data_enc"), (.str py"len_enc"), (.str py"len_type"), (.str py"max_len"), (.str py"desc")] [(.str py"b"), (.str py"ascii"), (.int 0), (.int 8), (.str py"Bitmap, Secondary")]),
    (.dict [(.str py"data_enc"), (.str py"len_enc"), (.str py"len_type"), (.str py"max_len"), (.str py"desc")] [(.str py"ascii"), (.str py"ascii"), (.int 2), (.int 19), (.str py"Primary Account Number (PAN)")]),
    (.dict [(.str py"data_enc"), (.str py"len_enc"), (.str py"len_type"), (.str py"max_len"), (.str py"desc")] [(.str py"ascii"), (.str py"ascii"), (.int 0), (.int 6), (.str py"Processing Code")]),
    (.dict [(.str py"data_enc"), (.str py"len_enc"), (.str py"len_type"), (.str py"max_len"), (.str py"desc")] [(.str py"ascii"), (.str py"ascii"), (.int 0), (.int 12), (.str py"Amount, Transaction")]),
    (.dict [(.str py"data_enc"), (.str py"len_enc"), (.str py"len_type"), (.str py"max_len"), (.str py"desc")] [(.str py"ascii"), (.str py"ascii"), (.int 0), (.int 12), (.str py"Amount, Settlement")]),
    (.dict [(.str py"data_enc"), (.str py"len_enc"), (.str py"len_type"), (.str py"max_len"), (.str py"desc")] [(.str py"ascii"), (.str py"ascii"), (.int 0), (.int 12), (.str py"Amount, Cardholder Billing")]),
    (.dict [(.str py"data_enc"), (.str py"len_enc"), (.str py"len_type"), (.str py"max_len"), (.str py"desc")] [(.str py"ascii"), (.str py"ascii"), (.int 0), (.int 10), (.str py"Transmission Date and Time")]),
    (.dict [(.str py"data_enc"), (.str py"len_enc"), (.str py"len_type"), (.str py"max_len"), (.str py"desc")] [(.str py"ascii"), (.str py"ascii"), (.int 0), (.int 8), (.str py"Amount, Cardholder Billing Fee")]),
    (.dict [(.str py"data_enc"), (.str py"len_enc"), (.str py"len_type"), (.str py"max_len"), (.str py"desc")] [(.str py"ascii"), (.str py"ascii"), (.int 0), (.int 8), (.str py"Conversion Rate, Settlement")]),
    (.dict [(.str py"data_enc"), (.str py"len_enc"), (.str py"len_type"), (.str py"max_len"), (.str py"desc")] [(.str py"ascii"), (.str py"ascii"), (.int 0), (.int 8), (.str py"Conversion Rate, Cardholder Billing")]),
    (.dict [(.str py"data_enc"), (.str py"len_enc"), (.str py"len_type"), (.str py"max_len"), (.str py"desc")] [(.str py"ascii"), (.str py"ascii"), (.int 0), (.int 6), (.str py"System Trace Audit Number")]),
    (.dict [(.str py"data_enc"), (.str py"len_enc"), (.str py"len_type"), (.str py"max_len"), (.str py"desc")] [(.str py"ascii"), (.str py"ascii"), (.int 0), (.int 6), (.str py"Time, Local Transaction")]),
    (.dict [(.str py"data_enc"), (.str py"len_enc"), (.str py"len_type"), (.str py"max_len"), (.str py"desc")] [(.str py"ascii"), (.str py"ascii"), (.int 0), (.int 4), (.str py"Date, Local Transaction")]),
    (.dict [(.str py"data_enc"), (.str py"len_enc"), (.str py"len_type"), (.str py"max_len"), (.str py"desc")] [(.str py"ascii"), (.str py"ascii"), (.int 0), (.int 4), (.str py"Date, Expiration")]),
    (.dict [(.str py"data_enc"), (.str py"len_enc"), (.str py"len_type"), (.str py"max_len"), (.str py"desc")] [(.str py"ascii"), (.str py"ascii"), (.int 0), (.int 4), (.str py"Date, Settlement")]),
    (.dict [(.str py"data_enc"), (.str py"len_enc"), (.str py"len_type"), (.str py"max_len"), (.str py"desc")] [(.str py"ascii"), (.str py"ascii"), (.int 0), (.int 4), (.str py"Date, Conversion")]),
    (.dict [(.str py"data_enc"), (.str py"len_enc"), (.str py"len_type"), (.str py"max_len"), (.str py"desc")] [(.str py"ascii"), (.str py"ascii"), (.int 0), (.int 4), (.str py"Date, Capture")]),
    (.dict [(.str py"data_enc"), (.str py"len_enc"), (.str py"len_type"), (.str py"max_len"), (.str py"desc")] [(.str py"ascii"), (.str py"ascii"), (.int 0), (.int 4), (.str py"Merchant Type")]),
    (.dict [(.str py"data_enc"), (.str py"len_enc"), (.str py"len_type"), (.str py"max_len"), (.str py"desc")] [(.str py"ascii"), (.str py"ascii"), (.int 0), (.int 3), (.str py"Acquiring Institution Country Code")]),
    (.dict [(.str py"data_enc"), (.str py"len_enc"), (.str py"len_type"), (.str py"max_len"), (.str py"desc")] [(.str py"ascii"), (.str py"ascii"), (.int 0), (.int 3), (.str py"PAN Country Code")]),
    (.dict [(.str py"data_enc"), (.str py"len_enc"), (.str py"len_type"), (.str py"max_len"), (.str py"desc")] [(.str py"ascii"), (.str py"ascii"), (.int 0), (.int 3), (.str py"Forwarding Institution Country Code")]),
    (.dict [(.str py"data_enc"), (.str py"len_enc"), (.str py"len_type"), (.str py"max_len"), (.str py"desc")] [(.str py"ascii"), (.str py"ascii"), (.int 0), (.int 3), (.str py"Point-of-Service Entry Mode")]),
    (.dict [(.str py"data_enc"), (.str py"len_enc"), (.str py"len_type"), (.str py"max_len"), (.str py"desc")] [(.str py"ascii"), (.str py"ascii"), (.int 0), (.int 3), (.str py"PAN Sequence Number")]),
    (.dict [(.str py"data_enc"), (.str py"len_enc"), (.str py"len_type"), (.str py"max_len"), (.str py"desc")] [(.str py"ascii"), (.str py"ascii"), (.int 0), (.int 3), (.str py"Network International ID (NII)")]),
    (.dict [(.str py"data_enc"), (.str py"len_enc"), (.str py"len_type"), (.str py"max_len"), (.str py"desc")] [(.str py"ascii"), (.str py"ascii"), (.int 0), (.int 2), (.str py"Point-of-Service Condition Code")]),
    (.dict [(.str py"data_enc"), (.str py"len_enc"), (.str py"len_type"), (.str py"max_len"), (.str py"desc")] [(.str py"ascii"), (.str py"ascii"), (.int 0), (.int 2), (.str py"Point-of-Service Capture Code")]),
    (.dict [(.str py"data_enc"), (.str py"len_enc"), (.str py"len_type"), (.str py"max_len"), (.str py"desc")] [(.str py"ascii"), (.str py"ascii"), (.int 0), (.int 1), (.str py"Authorizing ID Response Length")]),
    (.dict [(.str py"data_enc"), (.str py"len_enc"), (.str py"len_type"), (.str py"max_len"), (.str py"desc")] [(.str py"ascii"), (.str py"ascii"), (.int 0), (.int 9), (.str py"Amount, Transaction Fee")]),
    (.dict [(.str py"data_enc"), (.str py"len_enc"), (.str py"len_type"), (.str py"max_len"), (.str py"desc")] [(.str py"ascii"), (.str py"ascii"), (.int 0), (.int 9), (.str py"Amount, Settlement Fee")]),
    (.dict [(.str py"data_enc"), (.str py"len_enc"), (.str py"len_type"), (.str py"max_len"), (.str py"desc")] [(.str py"ascii"), (.str py"ascii"), (.int 0), (.int 9), (.str py"Amount, Transaction Processing Fee")]),
    (.dict [(.str py"data_enc"), (.str py"len_enc"), (.str py"len_type"), (.str py"max_len"), (.str py"desc")] [(.str py"ascii"), (.str py"ascii"), (.int 0), (.int 9), (.str py"Amount, Settlement Processing Fee")]),
    (.dict [(.str py"data_enc"), (.str py"len_enc"), (.str py"len_type"), (.str py"max_len"), (.str py"desc")] [(.str py"ascii"), (.str py"ascii"), (.int 2), (.int 11), (.str py"Acquiring Institution ID Code")]),
    (.dict [(.str py"data_enc"), (.str py"len_enc"), (.str py"len_type"), (.str py"max_len"), (.str py"desc")] [(.str py"ascii"), (.str py"ascii"), (.int 2), (.int 11), (.str py"Forwarding Institution ID Code")]),
    (.dict [(.str py"data_enc"), (.str py"len_enc"), (.str py"len_type"), (.str py"max_len"), (.str py"desc")] [(.str py"ascii"), (.str py"ascii"), (.int 2), (.int 28), (.str py"Primary Account Number, Extended")]),
    (.dict [(.str py"data_enc"), (.str py"len_enc"), (.str py"len_type"), (.str py"max_len"), (.str py"desc")] [(.str py"ascii"), (.str py"ascii"), (.int 2), (.int 37), (.str py"Track 2 Data")]),
    (.dict [(.str py"data_enc"), (.str py"len_enc"), (.str py"len_type"), (.str py"max_len"), (.str py"desc")] [(.str py"ascii"), (.str py"ascii"), (.int 3), (.int 104), (.str py"Track 3 Data")]),
    (.dict [(.str py"data_enc"), (.str py"len_enc"), (.str py"len_type"), (.str py"max_len"), (.str py"desc")] [(.str py"ascii"), (.str py"ascii"), (.int 0), (.int 12), (.str py"Retrieval Reference Number")]),
    (.dict [(.str py"data_enc"), (.str py"len_enc"), (.str py"len_type"), (.str py"max_len"), (.str py"desc")] [(.str py"ascii"), (.str py"ascii"), (.int 0), (.int 6), (.str py"Authorization ID Response")]),
    (.dict [(.str py"data_enc"), (.str py"len_enc"), (.str py"len_type"), (.str py"max_len"), (.str py"desc")] [(.str py"ascii"), (.str py"ascii"), (.int 0), (.int 2), (.str py"Response Code")]),
    (.dict [(.str py"data_enc"), (.str py"len_enc"), (.str py"len_type"), (.str py"max_len"), (.str py"desc")] [(.str py"ascii"), (.str py"ascii"), (.int 0), (.int 3), (.str py"Service Restriction Code")]),
    (.dict [(.str py"data_enc"), (.str py"len_enc"), (.str py"len_type"), (.str py"max_len"), (.str py"desc")] [(.str py"ascii"), (.str py"ascii"), (.int 0), (.int 8), (.str py"Card Acceptor Terminal ID")]),
    (.dict [(.str py"data_enc"), (.str py"len_enc"), (.str py"len_type"), (.str py"max_len"), (.str py"desc")] [(.str py"ascii"), (.str py"ascii"), (.int 0), (.int 15), (.str py"Card Acceptor ID Code")]),
    (.dict [(.str py"data_enc"), (.str py"len_enc"), (.str py"len_type"), (.str py"max_len"), (.str py"desc")] [(.str py"ascii"), (.str py"ascii"), (.int 0), (.int 40), (.str py"Card Acceptor Name/Location")]),
    (.dict [(.str py"data_enc"), (.str py"len_enc"), (.str py"len_type"), (.str py"max_len"), (.str py"desc")] [(.str py"ascii"), (.str py"ascii"), (.int 2), (.int 25), (.str py"Additional Response Data")]),
    (.dict [(.str py"data_enc"), (.str py"len_enc"), (.str py"len_type"), (.str py"max_len"), (.str py"desc")] [(.str py"ascii"), (.str py"ascii"), (.int 2), (.int 76), (.str py"Track 1 Data")]),
    (.dict [(.str py"data_enc"), (.str py"len_enc"), (.str py"len_type"), (.str py"max_len"), (.str py"desc")] [(.str py"ascii"), (.str py"ascii"), (.int 3), (.int 999), (.str py"Additional Data - ISO")]),
    (.dict [(.str py"data_enc"), (.str py"len_enc"), (.str py"len_type"), (.str py"max_len"), (.str py"desc")] [(.str py"ascii"), (.str py"ascii"), (.int 3), (.int 999), (.str py"Additional Data - National")]),
    (.dict [(.str py"data_enc"), (.str py"len_enc"), (.str py"len_type"), (.str py"max_len"), (.str py"desc")] [(.str py"ascii"), (.str py"ascii"), (.int 3), (.int 999), (.str py"Additional Data - Private")]),
    (.dict [(.str py"data_enc"), (.str py"len_enc"), (.str py"len_type"), (.str py"max_len"), (.str py"desc")] [(.str py"ascii"), (.str py"ascii"), (.int 0), (.int 3), (.str py"Currency Code, Transaction")]),
    (.dict [(.str py"data_enc"), (.str py"len_enc"), (.str py"len_type"), (.str py"max_len"), (.str py"desc")] [(.str py"ascii"), (.str py"ascii"), (.int 0), (.int 3), (.str py"Currency Code, Settlement")]),
    (.dict [(.str py"data_enc"), (.str py"len_enc"), (.str py"len_type"), (.str py"max_len"), (.str py"desc")] [(.str py"ascii"), (.str py"ascii"), (.int 0), (.int 3), (.str py"Currency Code, Cardholder Billing")]),
    (.dict [(.str py"data_enc"), (.str py"len_enc"), (.str py"len_type"), (.str py"max_len"), (.str py"desc")] [(.str py"b"), (.str py"ascii"), (.int 0), (.int 8), (.str py"PIN")]),
    (.dict [(.str py"data_enc"), (.str py"len_enc"), (.str py"len_type"), (.str py"max_len"), (.str py"desc")] [(.str py"ascii"), (.str py"ascii"), (.int 0), (.int 16), (.str py"Security-Related Control Information")]),
    (.dict [(.str py"data_enc"), (.str py"len_enc"), (.str py"len_type"), (.str py"max_len"), (.str py"desc")] [(.str py"ascii"), (.str py"ascii"), (.int 3), (.int 240), (.str py"Additional Amounts")]),
    (.dict [(.str py"data_enc"), (.str py"len_enc"), (.str py"len_type"), (.str py"max_len"), (.str py"desc")] [(.str py"b"), (.str py"ascii"), (.int 3), (.int 255), (.str py"ICC data")]),
    (.dict [(.str py"data_enc"), (.str py"len_enc"), (.str py"len_type"), (.str py"max_len"), (.str py"desc")] [(.str py"ascii"), (.str py"ascii"), (.int 3), (.int 999), (.str py"Reserved ISO")]),
    (.dict [(.str py"data_enc"), (.str py"len_enc"), (.str py"len_type"), (.str py"max_len"), (.str py"desc")] [(.str py"ascii"), (.str py"ascii"), (.int 3), (.int 999), (.str py"Reserved National")]),
    (.dict [(.str py"data_enc"), (.str py"len_enc"), (.str py"len_type"), (.str py"max_len"), (.str py"desc")] [(.str py"ascii"), (.str py"ascii"), (.int 3), (.int 999), (.str py"Reserved National")]),
    (.dict [(.str py"data_enc"), (.str py"len_enc"), (.str py"len_type"), (.str py"max_len"), (.str py"desc")] [(.str py"ascii"), (.str py"ascii"), (.int 3), (.int 999), (.str py"Reserved National")]),
    (.dict [(.str py"data_enc"), (.str py"len_enc"), (.str py"len_type"), (.str py"max_len"), (.str py"desc")] [(.str py"ascii"), (.str py"ascii"), (.int 3), (.int 999), (.str py"Reserved National")]),
    (.dict [(.str py"data_enc"), (.str py"len_enc"), (.str py"len_type"), (.str py"max_len"), (.str py"desc")] [(.str py"ascii"), (.str py"ascii"), (.int 3), (.int 999), (.str py"Reserved Private")]),
    (.dict [(.str py"data_enc"), (.str py"len_enc"), (.str py"len_type"), (.str py"max_len"), (.str py"desc")] [(.str py"ascii"), (.str py"ascii"), (.int 3), (.int 999), (.str py"Reserved Private")]),
    (.dict [(.str py"data_enc"), (.str py"len_enc"), (.str py"len_type"), (.str py"max_len"), (.str py"desc")] [(.str py"ascii"), (.str py"ascii"), (.int 3), (.int 999), (.str py"Reserved Private")]),
    (.dict [(.str py"data_enc"), (.str py"len_enc"), (.str py"len_type"), (.str py"max_len"), (.str py"desc")] [(.str py"b"), (.str py"ascii"), (.int 0), (.int 8), (.str py"MAC")]),
    (.dict [(.str py"data_enc"), (.str py"len_enc"), (.str py"len_type"), (.str py"max_len"), (.str py"desc")] [(.str py"b"), (.str py"ascii"), (.int 0), (.int 8), (.str py"Bitmap, Extended")]),
    (.dict [(.str py"data_enc"), (.str py"len_enc"), (.str py"len_type"), (.str py"max_len"), (.str py"desc")] [(.str py"ascii"), (.str py"ascii"), (.int 0), (.int 1), (.str py"Settlement Code")]),
    (.dict [(.str py"data_enc"), (.str py"len_enc"), (.str py"len_type"), (.str py"max_len"), (.str py"desc")] [(.str py"ascii"), (.str py"ascii"), (.int 0), (.int 2), (.str py"Extended Payment Code")]),
    (.dict [(.str py"data_enc"), (.str py"len_enc"), (.str py"len_type"), (.str py"max_len"), (.str py"desc")] [(.str py"ascii"), (.str py"ascii"), (.int 0), (.int 3), (.str py"Receiving Institution Country Code")]),
    (.dict [(.str py"data_enc"), (.str py"len_enc"), (.str py"len_type"), (.str py"max_len"), (.str py"desc")] [(.str py"ascii"), (.str py"ascii"), (.int 0), (.int 3), (.str py"Settlement Institution Country Code")]),
    (.dict [(.str py"data_enc"), (.str py"len_enc"), (.str py"len_type"), (.str py"max_len"), (.str py"desc")] [(.str py"ascii"), (.str py"ascii"), (.int 0), (.int 3), (.str py"Network Management Information Code")]),
    (.dict [(.str py"data_enc"), (.str py"len_enc"), (.str py"len_type"), (.str py"max_len"), (.str py"desc")] [(.str py"ascii"), (.str py"ascii"), (.int 0), (.int 4), (.str py"Message Number")]),
    (.dict [(.str py"data_enc"), (.str py"len_enc"), (.str py"len_type"), (.str py"max_len"), (.str py"desc")] [(.str py"ascii"), (.str py"ascii"), (.int 0), (.int 4), (.str py"Message Number, Last")]),
    (.dict [(.str py"data_enc"), (.str py"len_enc"), (.str py"len_type"), (.str py"max_len"), (.str py"desc")] [(.str py"ascii"), (.str py"ascii"), (.int 0), (.int 6), (.str py"Date, Action")]),
    (.dict [(.str py"data_enc"), (.str py"len_enc"), (.str py"len_type"), (.str py"max_len"), (.str py"desc")] [(.str py"ascii"), (.str py"ascii"), (.int 0), (.int 10), (.str py"Credits, Number")]),
    (.dict [(.str py"data_enc"), (.str py"len_enc"), (.str py"len_type"), (.str py"max_len"), (.str py"desc")] [(.str py"ascii"), (.str py"ascii"), (.int 0), (.int 10), (.str py"Credits, Reversal Number")]),
    (.dict [(.str py"data_enc"), (.str py"len_enc"), (.str py"len_type"), (.str py"max_len"), (.str py"desc")] [(.str py"ascii"), (.str py"ascii"), (.int 0), (.int 10), (.str py"Debits, Number")]),
    (.dict [(.str py"data_enc"), (.str py"len_enc"), (.str py"len_type"), (.str py"max_len"), (.str py"desc")] [(.str py"ascii"), (.str py"ascii"), (.int 0), (.int 10), (.str py"Debits, Reversal Number")]),
    (.dict [(.str py"data_enc"), (.str py"len_enc"), (.str py"len_type"), (.str py"max_len"), (.str py"desc")] [(.str py"ascii"), (.str py"ascii"), (.int 0), (.int 10), (.str py"Transfer, Number")]),
    (.dict [(.str py"data_enc"), (.str py"len_enc"), (.str py"len_type"), (.str py"max_len"), (.str py"desc")] [(.str py"ascii"), (.str py"ascii"), (.int 0), (.int 10), (.str py"Transfer, Reversal Number")]),
    (.dict [(.str py"data_enc"), (.str py"len_enc"), (.str py"len_type"), (.str py"max_len"), (.str py"desc")] [(.str py"ascii"), (.str py"ascii"), (.int 0), (.int 10), (.str py"Inquiries, Number")]),
    (.dict [(.str py"data_enc"), (.str py"len_enc"), (.str py"len_type"), (.str py"max_len"), (.str py"desc")] [(.str py"ascii"), (.str py"ascii"), (.int 0), (.int 10), (.str py"Authorizations, Number")]),
    (.dict [(.str py"data_enc"), (.str py"len_enc"), (.str py"len_type"), (.str py"max_len"), (.str py"desc")] [(.str py"ascii"), (.str py"ascii"), (.int 0), (.int 12), (.str py"Credits, Processing Fee Amount")]),
    (.dict [(.str py"data_enc"), (.str py"len_enc"), (.str py"len_type"), (.str py"max_len"), (.str py"desc")] [(.str py"ascii"), (.str py"ascii"), (.int 0), (.int 12), (.str py"Credits, Transaction Fee Amount")]),
    (.dict [(.str py"data_enc"), (.str py"len_enc"), (.str py"len_type"), (.str py"max_len"), (.str py"desc")] [(.str py"ascii"), (.str py"ascii"), (.int 0), (.int 12), (.str py"Debits, Processing Fee Amount")]),
    (.dict [(.str py"data_enc"), (.str py"len_enc"), (.str py"len_type"), (.str py"max_len"), (.str py"desc")] [(.str py"ascii"), (.str py"ascii"), (.int 0), (.int 12), (.str py"Debits, Transaction Fee Amount")]),
    (.dict [(.str py"data_enc"), (.str py"len_enc"), (.str py"len_type"), (.str py"max_len"), (.str py"desc")] [(.str py"ascii"), (.str py"ascii"), (.int 0), (.int 16), (.str py"Credits, Amount")]),
    (.dict [(.str py"data_enc"), (.str py"len_enc"), (.str py"len_type"), (.str py"max_len"), (.str py"desc")] [(.str py"ascii"), (.str py"ascii"), (.int 0), (.int 16), (.str py"Credits, Reversal Amount")]),
    (.dict [(.str py"data_enc"), (.str py"len_enc"), (.str py"len_type"), (.str py"max_len"), (.str py"desc")] [(.str py"ascii"), (.str py"ascii"), (.int 0), (.int 16), (.str py"Debits, Amount")]),
    (.dict [(.str py"data_enc"), (.str py"len_enc"), (.str py"len_type"), (.str py"max_len"), (.str py"desc")] [(.str py"ascii"), (.str py"ascii"), (.int 0), (.int 16), (.str py"Debits, Reversal Amount")]),
    (.dict [(.str py"data_enc"), (.str py"len_enc"), (.str py"len_type"), (.str py"max_len"), (.str py"desc")] [(.str py"ascii"), (.str py"ascii"), (.int 0), (.int 42), (.str py"Original Data Elements")]),
    (.dict [(.str py"data_enc"), (.str py"len_enc"), (.str py"len_type"), (.str py"max_len"), (.str py"desc")] [(.str py"ascii"), (.str py"ascii"), (.int 0), (.int 1), (.str py"File Update Code")]),
    (.dict [(.str py"data_enc"), (.str py"len_enc"), (.str py"len_type"), (.str py"max_len"), (.str py"desc")] [(.str py"ascii"), (.str py"ascii"), (.int 0), (.int 2), (.str py"File Security Code")]),
    (.dict [(.str py"data_enc"), (.str py"len_enc"), (.str py"len_type"), (.str py"max_len"), (.str py"desc")] [(.str py"ascii"), (.str py"ascii"), (.int 0), (.int 5), (.str py"Response Indicator")]),
    (.dict [(.str py"data_enc"), (.str py"len_enc"), (.str py"len_type"), (.str py"max_len"), (.str py"desc")] [(.str py"ascii"), (.str py"ascii"), (.int 0), (.int 7), (.str py"Service Indicator")]),
    (.dict [(.str py"data_enc"), (.str py"len_enc"), (.str py"len_type"), (.str py"max_len"), (.str py"desc")] [(.str py"ascii"), (.str py"ascii"), (.int 0), (.int 42), (.str py"Replacement Amounts")]),
    (.dict [(.str py"data_enc"), (.str py"len_enc"), (.str py"len_type"), (.str py"max_len"), (.str py"desc")] [(.str py"b"), (.str py"ascii"), (.int 0), (.int 8), (.str py"Message Security Code")]),
    (.dict [(.str py"data_enc"), (.str py"len_enc"), (.str py"len_type"), (.str py"max_len"), (.str py"desc")] [(.str py"ascii"), (.str py"ascii"), (.int 0), (.int 17), (.str py"Amount, Net Settlement")]),
    (.dict [(.str py"data_enc"), (.str py"len_enc"), (.str py"len_type"), (.str py"max_len"), (.str py"desc")] [(.str py"ascii"), (.str py"ascii"), (.int 0), (.int 25), (.str py"Payee")]),
    (.dict [(.str py"data_enc"), (.str py"len_enc"), (.str py"len_type"), (.str py"max_len"), (.str py"desc")] [(.str py"ascii"), (.str py"ascii"), (.int 2), (.int 11), (.str py"Settlement Institution ID Code")]),
    (.dict [(.str py"data_enc"), (.str py"len_enc"), (.str py"len_type"), (.str py"max_len"), (.str py"desc")] [(.str py"ascii"), (.str py"ascii"), (.int 2), (.int 11), (.str py"Receiving Institution ID Code")]),
    (.dict [(.str py"data_enc"), (.str py"len_enc"), (.str py"len_type"), (.str py"max_len"), (.str py"desc")] [(.str py"ascii"), (.str py"ascii"), (.int 2), (.int 17), (.str py"File Name")]),
    (.dict [(.str py"data_enc"), (.str py"len_enc"), (.str py"len_type"), (.str py"max_len"), (.str py"desc")] [(.str py"ascii"), (.str py"ascii"), (.int 2), (.int 28), (.str py"Account ID 1")]),
    (.dict [(.str py"data_enc"), (.str py"len_enc"), (.str py"len_type"), (.str py"max_len"), (.str py"desc")] [(.str py"ascii"), (.str py"ascii"), (.int 2), (.int 28), (.str py"Account ID 2")]),
    (.dict [(.str py"data_enc"), (.str py"len_enc"), (.str py"len_type"), (.str py"max_len"), (.str py"desc")] [(.str py"ascii"), (.str py"ascii"), (.int 3), (.int 100), (.str py"Transaction Description")]),
    (.dict [(.str py"data_enc"), (.str py"len_enc"), (.str py"len_type"), (.str py"max_len"), (.str py"desc")] [(.str py"ascii"), (.str py"ascii"), (.int 3), (.int 999), (.str py"Reserved for ISO Use")]),
    (.dict [(.str py"data_enc"), (.str py"len_enc"), (.str py"len_type"), (.str py"max_len"), (.str py"desc")] [(.str py"ascii"), (.str py"ascii"), (.int 3), (.int 999), (.str py"Reserved for ISO Use")]),
    (.dict [(.str py"data_enc"), (.str py"len_enc"), (.str py"len_type"), (.str py"max_len"), (.str py"desc")] [(.str py"ascii"), (.str py"ascii"), (.int 3), (.int 999), (.str py"Reserved for ISO Use")]),
    (.dict [(.str py"data_enc"), (.str py"len_enc"), (.str py"len_type"), (.str py"max_len"), (.str py"desc")] [(.str py"ascii"), (.str py"ascii"), (.int 3), (.int 999), (.str py"Reserved for ISO Use")]),
    (.dict [(.str py"data_enc"), (.str py"len_enc"), (.str py"len_type"), (.str py"max_len"), (.str py"desc")] [(.str py"ascii"), (.str py"ascii"), (.int 3), (.int 999), (.str py"Reserved for ISO Use")]),
    (.dict [(.str py"data_enc"), (.str py"len_enc"), (.str py"len_type"), (.str py"max_len"), (.str py"desc")] [(.str py"ascii"), (.str py"ascii"), (.int 3), (.int 999), (.str py"Reserved for ISO Use")]),
    (.dict [(.str py"data_enc"), (.str py"len_enc"), (.str py"len_type"), (.str py"max_len"), (.str py"desc")] [(.str py"ascii"), (.str py"ascii"), (.int 3), (.int 999), (.str py"Reserved for ISO Use")]),
    (.dict [(.str py"data_enc"), (.str py"len_enc"), (.str py"len_type"), (.str py"max_len"), (.str py"desc")] [(.str py"ascii"), (.str py"ascii"), (.int 3), (.int 999), (.str py"Reserved for National Use")]),
    (.dict [(.str py"data_enc"), (.str py"len_enc"), (.str py"len_type"), (.str py"max_len"), (.str py"desc")] [(.str py"ascii"), (.str py"ascii"), (.int 3), (.int 999), (.str py"Reserved for National Use")]),
    (.dict [(.str py"data_enc"), (.str py"len_enc"), (.str py"len_type"), (.str py"max_len"), (.str py"desc")] [(.str py"ascii"), (.str py"ascii"), (.int 3), (.int 999), (.str py"Reserved for National Use")]),
    (.dict [(.str py"data_enc"), (.str py"len_enc"), (.str py"len_type"), (.str py"max_len"), (.str py"desc")] [(.str py"ascii"), (.str py"ascii"), (.int 3), (.int 999), (.str py"Reserved for National Use")]),
    (.dict [(.str py"data_enc"), (.str py"len_enc"), (.str py"len_type"), (.str py"max_len"), (.str py"desc")] [(.str py"ascii"), (.str py"ascii"), (.int 3), (.int 999), (.str py"Reserved for National Use")]),
    (.dict [(.str py"data_enc"), (.str py"len_enc"), (.str py"len_type"), (.str py"max_len"), (.str py"desc")] [(.str py"ascii"), (.str py"ascii"), (.int 3), (.int 999), (.str py"Reserved for National Use")]),
    (.dict [(.str py"data_enc"), (.str py"len_enc"), (.str py"len_type"), (.str py"max_len"), (.str py"desc")] [(.str py"ascii"), (.str py"ascii"), (.int 3), (.int 999), (.str py"Reserved for National Use")]),
    (.dict [(.str py"data_enc"), (.str py"len_enc"), (.str py"len_type"), (.str py"max_len"), (.str py"desc")] [(.str py"ascii"), (.str py"ascii"), (.int 3), (.int 999), (.str py"Reserved for National Use")]),
    (.dict [(.str py"data_enc"), (.str py"len_enc"), (.str py"len_type"), (.str py"max_len"), (.str py"desc")] [(.str py"ascii"), (.str py"ascii"), (.int 3), (.int 999), (.str py"Reserved for Private Use")]),
    (.dict [(.str py"data_enc"), (.str py"len_enc"), (.str py"len_type"), (.str py"max_len"), (.str py"desc")] [(.str py"ascii"), (.str py"ascii"), (.int 3), (.int 999), (.str py"Reserved for Private Use")]),
    (.dict [(.str py"data_enc"), (.str py"len_enc"), (.str py"len_type"), (.str py"max_len"), (.str py"desc")] [(.str py"ascii"), (.str py"ascii"), (.int 3), (.int 999), (.str py"Reserved for Private Use")]),
    (.dict [(.str py"data_enc"), (.str py"len_enc"), (.str py"len_type"), (.str py"max_len"), (.str py"desc")] [(.str py"ascii"), (.str py"ascii"), (.int 3), (.int 999), (.str py"Reserved for Private Use")]),
    (.dict [(.str py"data_enc"), (.str py"len_enc"), (.str py"len_type"), (.str py"max_len"), (.str py"desc")] [(.str py"ascii"), (.str py"ascii"), (.int 3), (.int 999), (.str py"Reserved for Private Use")]),
    (.dict [(.str py"data_enc"), (.str py"len_enc"), (.str py"len_type"), (.str py"max_len"), (.str py"desc")] [(.str py"ascii"), (.str py"ascii"), (.int 3), (.int 999), (.str py"Reserved for Private Use")]),
    (.dict [(.str py"data_enc"), (.str py"len_enc"), (.str py"len_type"), (.str py"max_len"), (.str py"desc")] [(.str py"ascii"), (.str py"ascii"), (.int 3), (.int 999), (.str py"Reserved for Private Use")]),
    (.dict [(.str py"data_enc"), (.str py"len_enc"), (.str py"len_type"), (.str py"max_len"), (.str py"desc")] [(.str py"ascii"), (.str py"ascii"), (.int 3), (.int 999), (.str py"Reserved for Private Use")]),
    (.dict [(.str py"data_enc"), (.str py"len_enc"), (.str py"len_type"), (.str py"max_len"), (.str py"desc")] [(.str py"b"), (.str py"ascii"), (.int 0), (.int 8), (.str py"MAC")])])

/-- specs.py:1396-2314. -/
def specs2 : Stmt :=
  .assign [(.name .default_ascii)] (.dict [(.str py"h"), (.str py"t"), (.str py"p"), (.str py"1"), (.str py"2"), (.str py"3"), (.str py"4"), (.str py"5"), (.str py"6"), (.str py"7"), (.str py"8"), (.str py"9"), (.str py"10"), (.str py"11"), (.str py"12"), (.str py"13"), (.str py"14"), (.str py"15"), (.str py"16"), (.str py"17"), (.str py"18"), (.str py"19"), (.str py"20"), (.str py"21"), (.str py"22"), (.str py"23"), (.str py"24"), (.str py"25"), (.str py"26"), (.str py"27"), (.str py"28"), (.str py"29"), (.str py"30"), (.str py"31"), (.str py"32"), (.str py"33"), (.str py"34"), (.str py"35"), (.str py"36"), (.str py"37"), (.str py"38"), (.str py"39"), (.str py"40"), (.str py"41"), (.str py"42"), (.str py"43"), (.str py"44"), (.str py"45"), (.str py"46"), (.str py"47"), (.str py"48"), (.str py"49"), (.str py"50"), (.str py"51"), (.str py"52"), (.str py"53"), (.str py"54"), (.str py"55"), (.str py"56"), (.str py"57"), (.str py"58"), (.str py"59"), (.str py"60"), (.str py"61"), (.str py"62"), (.str py"63"), (.str py"64"), (.str py"65"), (.str py"66"), (.str py"67"), (.str py"68"), (.str py"69"), (.str py"70"), (.str py"71"), (.str py"72"), (.str py"73"), (.str py"74"), (.str py"75"), (.str py"76"), (.str py"77"), (.str py"78"), (.str py"79"), (.str py"80"), (.str py"81"), (.str py"82"), (.str py"83"), (.str py"84"), (.str py"85"), (.str py"86"), (.str py"87"), (.str py"88"), (.str py"89"), (.str py"90"), (.str py"91"), (.str py"92"), (.str py"93"), (.str py"94"), (.str py"95"), (.str py"96"), (.str py"97"), (.str py"98"), (.str py"99"), (.str py"100"), (.str py"101"), (.str py"102"), (.str py"103"), (.str py"104"), (.str py"105"), (.str py"106"), (.str py"107"), (.str py"108"), (.str py"109"), (.str py"110"), (.str py"111"), (.str py"112"), (.str py"113"), (.str py"114"), (.str py"115"), (.str py"116"), (.str py"117"), (.str py"118"), (.str py"119"), (.str py"120"), (.str py"121"), (.str py"122"), (.str py"123"), (.str py"124"), (.str py"125"), (.str py"126"), (.str py"127"), (.str py"128")] [
    (.dict [(.str py"data_enc"), (.str py"len_enc"), (.str py"len_type"), (.str py"max_len"), (.str py"desc")] [(.str py"ascii"), (.str py"ascii"), (.int 0), (.int 0), (.str py"Message Header")]),
    (.dict [(.str py"data_enc"), (.str py"len_enc"), (.str py"len_type"), (.str py"max_len"), (.str py"desc")] [(.str py"ascii"), (.str py"ascii"), (.int 0), (.int 4), (.str py"Message Type")]),
    (.dict [(.str py"data_enc"), (.str py"len_enc"), (.str py"len_type"), (.str py"max_len"), (.str py"desc")] [(.str py"ascii"), (.str py"ascii"), (.int 0), (.int 16), (.str py"Bitmap, Primary")]),
    (.dict [(.str py"data_enc"), (.str py"len_enc"), (.str py"len_type"), (.str py"max_len"), (.str py"desc")] [(.str py"ascii"), (.str py"ascii"), (.int 0), (.int 16), (.str py"Bitmap, Secondary")]),
    (.dict [(.str py"data_enc"), (.str py"len_enc"), (.str py"len_type"), (.str py"max_len"), (.str py"desc")] [(.str py"ascii"), (.str py"ascii"), (.int 2), (.int 19), (.str py"Primary Account Number (PAN)")]),
    (.dict [(.str py"data_enc"), (.str py"len_enc"), (.str py"len_type"), (.str py"max_len"), (.str py"desc")] [(.str py"ascii"), (.str py"ascii"), (.int 0), (.int 6), (.str py"Processing Code")]),
    (.dict [(.str py"data_enc"), (.str py"len_enc"), (.str py"len_type"), (.str py"max_len"), (.str py"desc")] [(.str py"ascii"), (.str py"ascii"), (.int 0), (.int 12), (.str py"Amount, Transaction")]),
    (.dict [(.str py"data_enc"), (.str py"len_enc"), (.str py"len_type"), (.str py"max_len"), (.str py"desc")] [(.str py"ascii"), (.str py"ascii"), (.int 0), (.int 12), (.str py"Amount, Settlement")]),
    (.dict [(.str py"data_enc"), (.str py"len_enc"), (.str py"len_type"), (.str py"max_len"), (.str py"desc")] [(.str py"ascii"), (.str py"ascii"), (.int 0), (.int 12), (.str py"Amount, Cardholder Billing")]),
    (.dict [(.str py"data_enc"), (.str py"len_enc"), (.str py"len_type"), (.str py"max_len"), (.str py"desc")] [(.str py"ascii"), (.str py"ascii"), (.int 0), (.int 10), (.str py"Transmission Date and Time")]),
    (.dict [(.str py"data_enc"), (.str py"len_enc"), (.str py"len_type"), (.str py"max_len"), (.str py"desc")] [(.str py"ascii"), (.str py"ascii"), (.int 0), (.int 8), (.str py"Amount, Cardholder Billing Fee")]),
    (.dict [(.str py"data_enc"), (.str py"len_enc"), (.str py"len_type"), (.str py"max_len"), (.str py"desc")] [(.str py"ascii"), (.str py"ascii"), (.int 0), (.int 8), (.str py"Conversion Rate, Settlement")]),
    (.dict [(.str py"data_enc"), (.str py"len_enc"), (.str py"len_type"), (.str py"max_len"), (.str py"desc")] [(.str py"ascii"), (.str py"ascii"), (.int 0), (.int 8), (.str py"Conversion Rate, Cardholder Billing")]),
    (.dict [(.str py"data_enc"), (.str py"len_enc"), (.str py"len_type"), (.str py"max_len"), (.str py"desc")] [(.str py"ascii"), (.str py"ascii"), (.int 0), (.int 6), (.str py"System Trace Audit Number")]),
    (.dict [(.str py"data_enc"), (.str py"len_enc"), (.str py"len_type"), (.str py"max_len"), (.str py"desc")] [(.str py"ascii"), (.str py"ascii"), (.int 0), (.int 6), (.str py"Time, Local Transaction")]),
    (.dict [(.str py"data_enc"), (.str py"len_enc"), (.str py"len_type"), (.str py"max_len"), (.str py"desc")] [(.str py"ascii"), (.str py"ascii"), (.int 0), (.int 4), (.str py"Date, Local Transaction")]),
    (.dict [(.str py"data_enc"), (.str py"len_enc"), (.str py"len_type"), (.str py"max_len"), (.str py"desc")] [(.str py"ascii"), (.str py"ascii"), (.int 0), (.int 4), (.str py"Date, Expiration")]),
    (.dict [(.str py"data_enc"), (.str py"len_enc"), (.str py"len_type"), (.str py"max_len"), (.str py"desc")] [(.str py"ascii"), (.str py"ascii"), (.int 0), (.int 4), (.str py"Date, Settlement")]),
    (.dict [(.str py"data_enc"), (.str py"len_enc"), (.str py"len_type"), (.str py"max_len"), (.str py"desc")] [(.str py"ascii"), (.str py"ascii"), (.int 0), (.int 4), (.str py"Date, Conversion")]),
    (.dict [(.str py"data_enc"), (.str py"len_enc"), (.str py"len_type"), (.str py"max_len"), (.str py"desc")] [(.str py"ascii"), (.str py"ascii"), (.int 0), (.int 4), (.str py"Date, Capture")]),
    (.dict [(.str py"data_enc"), (.str py"len_enc"), (.str py"len_type"), (.str py"max_len"), (.str py"desc")] [(.str py"ascii"), (.str py"ascii"), (.int 0), (.int 4), (.str py"Merchant Type")]),
    (.dict [(.str py"data_enc"), (.str py"len_enc"), (.str py"len_type"), (.str py"max_len"), (.str py"desc")] [(.str py"ascii"), (.str py"ascii"), (.int 0), (.int 3), (.str py"Acquiring Institution Country Code")]),
    (.dict [(.str py"data_enc"), (.str py"len_enc"), (.str py"len_type"), (.str py"max_len"), (.str py"desc")] [(.str py"ascii"), (.str py"ascii"), (.int 0), (.int 3), (.str py"PAN Country Code")]),
    (.dict [(.str py"data_enc"), (.str py"len_enc"), (.str py"len_type"), (.str py"max_len"), (.str py"desc")] [(.str py"ascii"), (.str py"ascii"), (.int 0), (.int 3), (.str py"Forwarding Institution Country Code")]),
    (.dict [(.str py"data_enc"), (.str py"len_enc"), (.str py"len_type"), (.str py"max_len"), (.str py"desc")] [(.str py"ascii"), (.str py"ascii"), (.int 0), (.int 3), (.str py"Point-of-Service Entry Mode")]),
    (.dict [(.str py"data_enc"), (.str py"len_enc"), (.str py"len_type"), (.str py"max_len"), (.str py"desc")] [(.str py"ascii"), (.str py"ascii"), (.int 0), (.int 3), (.str py"PAN Sequence Number")]),
    (.dict [(.str py"data_enc"), (.str py"len_enc"), (.str py"len_type"), (.str py"max_len"), (.str py"desc")] [(.str py"ascii"), (.str py"ascii"), (.int 0), (.int 3), (.str py"Network International ID (NII)")]),
    (.dict [(.str py"data_enc"), (.str py"len_enc"), (.str py"len_type"), (.str py"max_len"), (.str py"desc")] [(.str py"ascii"), (.str py"ascii"), (.int 0), (.int 2), (.str py"Point-of-Service Condition Code")]),
    (.dict [(.str py"data_enc"), (.str py"len_enc"), (.str py"len_type"), (.str py"max_len"), (.str py"desc")] [(.str py"ascii"), (.str py"ascii"), (.int 0), (.int 2), (.str py"Point-of-Service Capture Code")]),
    (.dict [(.str py"data_enc"), (.str py"len_enc"), (.str py"len_type"), (.str py"max_len"), (.str py"desc")] [(.str py"ascii"), (.str py"ascii"), (.int 0), (.int 1), (.str py"Authorizing ID Response Length")]),
    (.dict [(.str py"data_enc"), (.str py"len_enc"), (.str py"len_type"), (.str py"max_len"), (.str py"desc")] [(.str py"ascii"), (.str py"ascii"), (.int 0), (.int 9), (.str py"Amount, Transaction Fee")]),
    (.dict [(.str py"data_enc"), (.str py"len_enc"), (.str py"len_type"), (.str py"max_len"), (.str py"desc")] [(.str py"ascii"), (.str py"ascii"), (.int 0), (.int 9), (.str py"Amount, Settlement Fee")]),
    (.dict [(.str py"data_enc"), (.str py"len_enc"), (.str py"len_type"), (.str py"max_len"), (.str py"desc")] [(.str py"ascii"), (.str py"ascii"), (.int 0), (.int 9), (.str py"Amount, Transaction Processing Fee")]),
    (.dict [(.str py"data_enc"), (.str py"len_enc"), (.str py"len_type"), (.str py"max_len"), (.str py"desc")] [(.str py"ascii"), (.str py"ascii"), (.int 0), (.int 9), (.str py"Amount, Settlement Processing Fee")]),
    (.dict [(.str py"data_enc"), (.str py"len_enc"), (.str py"len_type"), (.str py"max_len"), (.str py"desc")] [(.str py"ascii"), (.str py"ascii"), (.int 2), (.int 11), (.str py"Acquiring Institution ID Code")]),
    (.dict [(.str py"data_enc"), (.str py"len_enc"), (.str py"len_type"), (.str py"max_len"), (.str py"desc")] [(.str py"ascii"), (.str py"ascii"), (.int 2), (.int 11), (.str py"Forwarding Institution ID Code")]),
    (.dict [(.str py"data_enc"), (.str py"len_enc"), (.str py"len_type"), (.str py"max_len"), (.str py"desc")] [(.str py"ascii"), (.str py"ascii"), (.int 2), (.int 28), (.str py"Primary Account Number, Extended")]),
    (.dict [(.str py"data_enc"), (.str py"len_enc"), (.str py"len_type"), (.str py"max_len"), (.str py"desc")] [(.str py"ascii"), (.str py"ascii"), (.int 2), (.int 37), (.str py"Track 2 Data")]),
    (.dict [(.str py"data_enc"), (.str py"len_enc"), (.str py"len_type"), (.str py"max_len"), (.str py"desc")] [(.str py"ascii"), (.str py"ascii"), (.int 3), (.int 104), (.str py"Track 3 Data")]),
    (.dict [(.str py"data_enc"), (.str py"len_enc"), (.str py"len_type"), (.str py"max_len"), (.str py"desc")] [(.str py"ascii"), (.str py"ascii"), (.int 0), (.int 12), (.str py"Retrieval Reference Number")]),
    (.dict [(.str py"data_enc"), (.str py"len_enc"), (.str py"len_type"), (.str py"max_len"), (.str py"desc")] [(.str py"ascii"), (.str py"ascii"), (.int 0), (.int 6), (.str py"Authorization ID Response")]),
    (.dict [(.str py"data_enc"), (.str py"len_enc"), (.str py"len_type"), (.str py"max_len"), (.str py"desc")] [(.str py"ascii"), (.str py"ascii"), (.int 0), (.int 2), (.str py"Response Code")]),
    (.dict [(.str py"data_enc"), (.str py"len_enc"), (.str py"len_type"), (.str py"max_len"), (.str py"desc")] [(.str py"ascii"), (.str py"ascii"), (.int 0), (.int 3), (.str py"Service Restriction Code")]),
    (.dict [(.str py"data_enc"), (.str py"len_enc"), (.str py"len_type"), (.str py"max_len"), (.str py"desc")] [(.str py"ascii"), (.str py"ascii"), (.int 0), (.int 8), (.str py"Card Acceptor Terminal ID")]),
    (.dict [(.str py"data_enc"), (.str py"len_enc"), (.str py"len_type"), (.str py"max_len"), (.str py"desc")] [(.str py"ascii"), (.str py"ascii"), (.int 0), (.int 15), (.str py"Card Acceptor ID Code")]),
    (.dict [(.str py"data_enc"), (.str py"len_enc"), (.str py"len_type"), (.str py"max_len"), (.str py"desc")] [(.str py"ascii"), (.str py"ascii"), (.int 0), (.int 40), (.str py"Card Acceptor Name/Location")]),
    (.dict [(.str py"data_enc"), (.str py"len_enc"), (.str py"len_type"), (.str py"max_len"), (.str py"desc")] [(.str py"ascii"), (.str py"ascii"), (.int 2), (.int 25), (.str py"Additional Response Data")]),
    (.dict [(.str py"data_enc"), (.str py"len_enc"), (.str py"len_type"), (.str py"max_len"), (.str py"desc")] [(.str py"ascii"), (.str py"ascii"), (.int 2), (.int 76), (.str py"Track 1 Data")]),
    (.dict [(.str py"data_enc"), (.str py"len_enc"), (.str py"len_type"), (.str py"max_len"), (.str py"desc")] [(.str py"ascii"), (.str py"ascii"), (.int 3), (.int 999), (.str py"Additional Data - ISO")]),
    (.dict [(.str py"data_enc"), (.str py"len_enc"), (.str py"len_type"), (.str py"max_len"), (.str py"desc")] [(.str py"ascii"), (.str py"ascii"), (.int 3), (.int 999), (.str py"Additional Data - National")]),
    (.dict [(.str py"data_enc"), (.str py"len_enc"), (.str py"len_type"), (.str py"max_len"), (.str py"desc")] [(.str py"ascii"), (.str py"ascii"), (.int 3), (.int 999), (.str py"Additional Data - Private")]),
    (.dict [(.str py"data_enc"), (.str py"len_enc"), (.str py"len_type"), (.str py"max_len"), (.str py"desc")] [(.str py"ascii"), (.str py"ascii"), (.int 0), (.int 3), (.str py"Currency Code, Transaction")]),
    (.dict [(.str py"data_enc"), (.str py"len_enc"), (.str py"len_type"), (.str py"max_len"), (.str py"desc")] [(.str py"ascii"), (.str py"ascii"), (.int 0), (.int 3), (.str py"Currency Code, Settlement")]),
    (.dict [(.str py"data_enc"), (.str py"len_enc"), (.str py"len_type"), (.str py"max_len"), (.str py"desc")] [(.str py"ascii"), (.str py"ascii"), (.int 0), (.int 3), (.str py"Currency Code, Cardholder Billing")]),
    (.dict [(.str py"data_enc"), (.str py"len_enc"), (.str py"len_type"), (.str py"max_len"), (.str py"desc")] [(.str py"ascii"), (.str py"ascii"), (.int 0), (.int 16), (.str py"PIN")]),
    (.dict [(.str py"data_enc"), (.str py"len_enc"), (.str py"len_type"), (.str py"max_len"), (.str py"desc")] [(.str py"ascii"), (.str py"ascii"), (.int 0), (.int 16), (.str py"Security-Related Control Information")]),
    (.dict [(.str py"data_enc"), (.str py"len_enc"), (.str py"len_type"), (.str py"max_len"), (.str py"desc")] [(.str py"ascii"), (.str py"ascii"), (.int 3), (.int 240), (.str py"Additional Amounts")]),
    (.dict [(.str py"data_enc"), (.str py"len_enc"), (.str py"len_type"), (.str py"max_len"), (.str py"desc")] [(.str py"ascii"), (.str py"ascii"), (.int 3), (.int 510), (.str py"ICC data")]),
    (.dict [(.str py"data_enc"), (.str py"len_enc"), (.str py"len_type"), (.str py"max_len"), (.str py"desc")] [(.str py"ascii"), (.str py"ascii"), (.int 3), (.int 999), (.str py"Reserved ISO")]),
    (.dict [(.str py"data_enc"), (.str py"len_enc"), (.str py"len_type"), (.str py"max_len"), (.str py"desc")] [(.str py"ascii"), (.str py"ascii"), (.int 3), (.int 999), (.str py"Reserved National")]),
    (.dict [(.str py"data_enc"), (.str py"len_enc"), (.str py"len_type"), (.str py"max_len"), (.str py"desc")] [(.str py"ascii"), (.str py"ascii"), (.int 3), (.int 999), (.str py"Reserved National")]),
    (.dict [(.str py"data_enc"), (.str py"len_enc"), (.str py"len_type"), (.str py"max_len"), (.str py"desc")] [(.str py"ascii"), (.str py"ascii"), (.int 3), (.int 999), (.str py"Reserved National")]),
    (.dict [(.str py"data_enc"), (.str py"len_enc"), (.str py"len_type"), (.str py"max_len"), (.str py"desc")] [(.str py"ascii"), (.str py"ascii"), (.int 3), (.int 999), (.str py"Reserved National")]),
    (.dict [(.str py"data_enc"), (.str py"len_enc"), (.str py"len_type"), (.str py"max_len"), (.str py"desc")] [(.str py"ascii"), (.str py"ascii"), (.int 3), (.int 999), (.str py"Reserved Private")]),
    (.dict [(.str py"data_enc"), (.str py"len_enc"), (.str py"len_type"), (.str py"max_len"), (.str py"desc")] [(.str py"ascii"), (.str py"ascii"), (.int 3), (.int 999), (.str py"Reserved Private")]),
    (.dict [(.str py"data_enc"), (.str py"len_enc"), (.str py"len_type"), (.str py"max_len"), (.str py"desc")] [(.str py"ascii"), (.str py"ascii"), (.int 3), (.int 999), (.str py"Reserved Private")]),
    (.dict [(.str py"data_enc"), (.str py"len_enc"), (.str py"len_type"), (.str py"max_len"), (.str py"desc")] [(.str py"ascii"), (.str py"ascii"), (.int 0), (.int 16), (.str py"MAC")]),
    (.dict [(.str py"data_enc"), (.str py"len_enc"), (.str py"len_type"), (.str py"max_len"), (.str py"desc")] [(.str py"ascii"), (.str py"ascii"), (.int 0), (.int 16), (.str py"Bitmap, Extended")]),
    (.dict [(.str py"data_enc"), (.str py"len_enc"), (.str py"len_type"), (.str py"max_len"), (.str py"desc")] [(.str py"ascii"), (.str py"ascii"), (.int 0), (.int 1), (.str py"Settlement Code")]),
    (.dict [(.str py"data_enc"), (.str py"len_enc"), (.str py"len_type"), (.str py"max_len"), (.str py"desc")] [(.str py"ascii"), (.str py"ascii"), (.int 0), (.int 2), (.str py"Extended Payment Code")]),
    (.dict [(.str py"data_enc"), (.str py"len_enc"), (.str py"len_type"), (.str py"max_len"), (.str py"desc")] [(.str py"ascii"), (.str py"ascii"), (.int 0), (.int 3), (.str py"Receiving Institution Country Code")]),
    (.dict [(.str py"data_enc"), (.str py"len_enc"), (.str py"len_type"), (.str py"max_len"), (.str py"desc")] [(.str py"ascii"), (.str py"ascii"), (.int 0), (.int 3), (.str py"Settlement Institution Country Code")]),
    (.dict [(.str py"data_enc"), (.str py"len_enc"), (.str py"len_type"), (.str py"max_len"), (.str py"desc")] [(.str py"ascii"), (.str py"ascii"), (.int 0), (.int 3), (.str py"Network Management Information Code")]),
    (.dict [(.str py"data_enc"), (.str py"len_enc"), (.str py"len_type"), (.str py"max_len"), (.str py"desc")] [(.str py"ascii"), (.str py"ascii"), (.int 0), (.int 4), (.str py"Message Number")]),
    (.dict [(.str py"data_enc"), (.str py"len_enc"), (.str py"len_type"), (.str py"max_len"), (.str py"desc")] [(.str py"ascii"), (.str py"ascii"), (.int 0), (.int 4), (.str py"Message Number, Last")]),
    (.dict [(.str py"data_enc"), (.str py"len_enc"), (.str py"len_type"), (.str py"max_len"), (.str py"desc")] [(.str py"ascii"), (.str py"ascii"), (.int 0), (.int 6), (.str py"Date, Action")]),
    (.dict [(.str py"data_enc"), (.str py"len_enc"), (.str py"len_type"), (.str py"max_len"), (.str py"desc")] [(.str py"ascii"), (.str py"ascii"), (.int 0), (.int 10), (.str py"Credits, Number")]),
    (.dict [(.str py"data_enc"), (.str py"len_enc"), (.str py"len_type"), (.str py"max_len"), (.str py"desc")] [(.str py"ascii"), (.str py"ascii"), (.int 0), (.int 10), (.str py"Credits, Reversal Number")]),
    (.dict [(.str py"data_enc"), (.str py"len_enc"), (.str py"len_type"), (.str py"max_len"), (.str py"desc")] [(.str py"ascii"), (.str py"ascii"), (.int 0), (.int 10), (.str py"Debits, Number")]),
    (.dict [(.str py"data_enc"), (.str py"len_enc"), (.str py"len_type"), (.str py"max_len"), (.str py"desc")] [(.str py"ascii"), (.str py"ascii"), (.int 0), (.int 10), (.str py"Debits, Reversal Number")]),
    (.dict [(.str py"data_enc"), (.str py"len_enc"), (.str py"len_type"), (.str py"max_len"), (.str py"desc")] [(.str py"ascii"), (.str py"ascii"), (.int 0), (.int 10), (.str py"Transfer, Number")]),
    (.dict [(.str py"data_enc"), (.str py"len_enc"), (.str py"len_type"), (.str py"max_len"), (.str py"desc")] [(.str py"ascii"), (.str py"ascii"), (.int 0), (.int 10), (.str py"Transfer, Reversal Number")]),
    (.dict [(.str py"data_enc"), (.str py"len_enc"), (.str py"len_type"), (.str py"max_len"), (.str py"desc")] [(.str py"ascii"), (.str py"ascii"), (.int 0), (.int 10), (.str py"Inquiries, Number")]),
    (.dict [(.str py"data_enc"), (.str py"len_enc"), (.str py"len_type"), (.str py"max_len"), (.str py"desc")] [(.str py"ascii"), (.str py"ascii"), (.int 0), (.int 10), (.str py"Authorizations, Number")]),
    (.dict [(.str py"data_enc"), (.str py"len_enc"), (.str py"len_type"), (.str py"max_len"), (.str py"desc")] [(.str py"ascii"), (.str py"ascii"), (.int 0), (.int 12), (.str py"Credits, Processing Fee Amount")]),
    (.dict [(.str py"data_enc"), (.str py"len_enc"), (.str py"len_type"), (.str py"max_len"), (.str py"desc")] [(.str py"ascii"), (.str py"ascii"), (.int 0), (.int 12), (.str py"Credits, Transaction Fee Amount")]),
    (.dict [(.str py"data_enc"), (.str py"len_enc"), (.str py"len_type"), (.str py"max_len"), (.str py"desc")] [(.str py"ascii"), (.str py"ascii"), (.int 0), (.int 12), (.str py"Debits, Processing Fee Amount")]),
    (.dict [(.str py"data_enc"), (.str py"len_enc"), (.str py"len_type"), (.str py"max_len"), (.str py"desc")] [(.str py"ascii"), (.str py"ascii"), (.int 0), (.int 12), (.str py"Debits, Transaction Fee Amount")]),
    (.dict [(.str py"data_enc"), (.str py"len_enc"), (.str py"len_type"), (.str py"max_len"), (.str py"desc")] [(.str py"ascii"), (.str py"ascii"), (.int 0), (.int 16), (.str py"Credits, Amount")]),
    (.dict [(.str py"data_enc"), (.str py"len_enc"), (.str py"len_type"), (.str py"max_len"), (.str py"desc")] [(.str py"ascii"), (.str py"ascii"), (.int 0), (.int 16), (.str py"Credits, Reversal Amount")]),
    (.dict [(.str py"data_enc"), (.str py"len_enc"), (.str py"len_type"), (.str py"max_len"), (.str py"desc")] [(.str py"ascii"), (.str py"ascii"), (.int 0), (.int 16), (.str py"Debits, Amount")]),
    (.dict [(.str py"data_enc"), (.str py"len_enc"), (.str py"len_type"), (.str py"max_len"), (.str py"desc")] [(.str py"ascii"), (.str py"ascii"), (.int 0), (.int 16), (.str py"Debits, Reversal Amount")]),
    (.dict [(.str py"data_enc"), (.str py"len_enc"), (.str py"len_type"), (.str py"max_len"), (.str py"desc")] [(.str py"ascii"), (.str py"ascii"), (.int 0), (.int 42), (.str py"Original Data Elements")]),
    (.dict [(.str py"data_enc"), (.str py"len_enc"), (.str py"len_type"), (.str py"max_len"), (.str py"desc")] [(.str py"ascii"), (.str py"ascii"), (.int 0), (.int 1), (.str py"File Update Code")]),
    (.dict [(.str py"data_enc"), (.str py"len_enc"), (.str py"len_type"), (.str py"max_len"), (.str py"desc")] [(.str py"ascii"), (.str py"ascii"), (.int 0), (.int 2), (.str py"File Security Code")]),
    (.dict [(.str py"data_enc"), (.str py"len_enc"), (.str py"len_type"), (.str py"max_len"), (.str py"desc")] [(.str py"ascii"), (.str py"ascii"), (.int 0), (.int 5), (.str py"Response Indicator")]),
    (.dict [(.str py"data_enc"), (.str py"len_enc"), (.str py"len_type"), (.str py"max_len"), (.str py"desc")] [(.str py"ascii"), (.str py"ascii"), (.int 0), (.int 7), (.str py"Service Indicator")]),
    (.dict [(.str py"data_enc"), (.str py"len_enc"), (.str py"len_type"), (.str py"max_len"), (.str py"desc")] [(.str py"ascii"), (.str py"ascii"), (.int 0), (.int 42), (.str py"Replacement Amounts")]),
    (.dict [(.str py"data_enc"), (.str py"len_enc"), (.str py"len_type"), (.str py"max_len"), (.str py"desc")] [(.str py"ascii"), (.str py"ascii"), (.int 0), (.int 16), (.str py"Message Security Code")]),
    (.dict [(.str py"data_enc"), (.str py"len_enc"), (.str py"len_type"), (.str py"max_len"), (.str py"desc")] [(.str py"ascii"), (.str py"ascii"), (.int 0), (.int 17), (.str py"Amount, Net Settlement")]),
    (.dict [(.str py"data_enc"), (.str py"len_enc"), (.str py"len_type"), (.str py"max_len"), (.str py"desc")] [(.str py"ascii"), (.str py"ascii"), (.int 0), (.int 25), (.str py"Payee")]),
    (.dict [(.str py"data_enc"), (.str py"len_enc"), (.str py"len_type"), (.str py"max_len"), (.str py"desc")] [(.str py"ascii"), (.str py"ascii"), (.int 2), (.int 11), (.str py"Settlement Institution ID Code")]),
    (.dict [(.str py"data_enc"), (.str py"len_enc"), (.str py"len_type"), (.str py"max_len"), (.str py"desc")] [(.str py"ascii"), (.str py"ascii"), (.int 2), (.int 11), (.str py"Receiving Institution ID Code")]),
    (.dict [(.str py"data_enc"), (.str py"len_enc"), (.str py"len_type"), (.str py"max_len"), (.str py"desc")] [(.str py"ascii"), (.str py"ascii"), (.int 2), (.int 17), (.str py"File Name")]),
    (.dict [(.str py"data_enc"), (.str py"len_enc"), (.str py"len_type"), (.str py"max_len"), (.str py"desc")] [(.str py"ascii"), (.str py"ascii"), (.int 2), (.int 28), (.str py"Account ID 1")]),
    (.dict [(.str py"data_enc"), (.str py"len_enc"), (.str py"len_type"), (.str py"max_len"), (.str py"desc")] [(.str py"ascii"), (.str py"ascii"), (.int 2), (.int 28), (.str py"Account ID 2")]),
    (.dict [(.str py"data_enc"), (.str py"len_enc"), (.str py"len_type"), (.str py"max_len"), (.str py"desc")] [(.str py"ascii"), (.str py"ascii"), (.int 3), (.int 100), (.str py"Transaction Description")]),
    (.dict [(.str py"data_enc"), (.str py"len_enc"), (.str py"len_type"), (.str py"max_len"), (.str py"desc")] [(.str py"ascii"), (.str py"ascii"), (.int 3), (.int 999), (.str py"Reserved for ISO Use")]),
    (.dict [(.str py"data_enc"), (.str py"len_enc"), (.str py"len_type"), (.str py"max_len"), (.str py"desc")] [(.str py"ascii"), (.str py"ascii"), (.int 3), (.int 999), (.str py"Reserved for ISO Use")]),
    (.dict [(.str py"data_enc"), (.str py"len_enc"), (.str py"len_type"), (.str py"max_len"), (.str py"desc")] [(.str py"ascii"), (.str py"ascii"), (.int 3), (.int 999), (.str py"Reserved for ISO Use")]),
    (.dict [(.str py"data_enc"), (.str py"len_enc"), (.str py"len_type"), (.str py"max_len"), (.str py"desc")] [(.str py"ascii"), (.str py"ascii"), (.int 3), (.int 999), (.str py"Reserved for ISO Use")]),
    (.dict [(.str py"data_enc"), (.str py"len_enc"), (.str py"len_type"), (.str py"max_len"), (.str py"desc")] [(.str py"ascii"), (.str py"ascii"), (.int 3), (.int 999), (.str py"Reserved for ISO Use")]),
    (.dict [(.str py"data_enc"), (.str py"len_enc"), (.str py"len_type"), (.str py"max_len"), (.str py"desc")] [(.str py"ascii"), (.str py"ascii"), (.int 3), (.int 999), (.str py"Reserved for ISO Use")]),
    (.dict [(.str py"data_enc"), (.str py"len_enc"), (.str py"len_type"), (.str py"max_len"), (.str py"desc")] [(.str py"ascii"), (.str py"ascii"), (.int 3), (.int 999), (.str py"Reserved for ISO Use")]),
    (.dict [(.str py"data_enc"), (.str py"len_enc"), (.str py"len_type"), (.str py"max_len"), (.str py"desc")] [(.str py"ascii"), (.str py"ascii"), (.int 3), (.int 999), (.str py"Reserved for National Use")]),
    (.dict [(.str py"data_enc"), (.str py"len_enc"), (.str py"len_type"), (.str py"max_len"), (.str py"desc")] [(.str py"ascii"), (.str py"ascii"), (.int 3), (.int 999), (.str py"Reserved for National Use")]),
    (.dict [(.str py"data_enc"), (.str py"len_enc"), (.str py"len_type"), (.str py"max_len"), (.str py"desc")] [(.str py"ascii"), (.str py"ascii"), (.int 3), (.int 999), (.str py"Reserved for National Use")]),
    (.dict [(.str py"data_enc"), (.str py"len_enc"), (.str py"len_type"), (.str py"max_len"), (.str py"desc")] [(.str py"ascii"), (.str py"ascii"), (.int 3), (.int 999), (.str py"Reserved for National Use")]),
    (.dict [(.str py"data_enc"), (.str py"len_enc"), (.str py"len_type"), (.str py"max_len"), (.str py"desc")] [(.str py"ascii"), (.str py"ascii"), (.int 3), (.int 999), (.str py"Reserved for National Use")]),
    (.dict [(.str py"data_enc"), (.str py"len_enc"), (.str py"len_type"), (.str py"max_len"), (.str py"desc")] [(.str py"ascii"), (.str py"ascii"), (.int 3), (.int 999), (.str py"Reserved for National Use")]),
    (.dict [(.str py"data_enc"), (.str py"len_enc"), (.str py"len_type"), (.str py"max_len"), (.str py"desc")] [(.str py"ascii"), (.str py"ascii"), (.int 3), (.int 999), (.str py"Reserved for National Use")]),
    (.dict [(.str py"data_enc"), (.str py"len_enc"), (.str py"len_type"), (.str py"max_len"), (.str py"desc")] [(.str py"ascii"), (.str py"ascii"), (.int 3), (.int 999), (.str py"Reserved for National Use")]),
    (.dict [(.str py"data_enc"), (.str py"len_enc"), (.str py"len_type"), (.str py"max_len"), (.str py"desc")] [(.str py"ascii"), (.str py"ascii"), (.int 3), (.int 999), (.str py"Reserved for Private Use")]),
    (.dict [(.str py"data_enc"), (.str py"len_enc"), (.str py"len_type"), (.str py"max_len"), (.str py"desc")] [(.str py"ascii"), (.str py"ascii"), (.int 3), (.int 999), (.str py"Reserved for Private Use")]),
    (.dict [(.str py"data_enc"), (.str py"len_enc"), (.str py"len_type"), (.str py"max_len"), (.str py"desc")] [(.str py"ascii"), (.str py"ascii"), (.int 3), (.int 999), (.str py"Reserved for Private Use")]),
    (.dict [(.str py"data_enc"), (.str py"len_enc"), (.str py"len_type"), (.str py"max_len"), (.str py"desc")] [(.str py"ascii"), (.str py"ascii"), (.int 3), (.int 999), (.str py"Reserved for Private Use")]),
    (.dict [(.str py"data_enc"), (.str py"len_enc"), (.str py"len_type"), (.str py"max_len"), (.str py"desc")] [(.str py"ascii"), (.str py"ascii"), (.int 3), (.int 999), (.str py"Reserved for Private Use")]),
    (.dict [(.str py"data_enc"), (.str py"len_enc"), (.str py"len_type"), (.str py"max_len"), (.str py"desc")] [(.str py"ascii"), (.str py"ascii"), (.int 3), (.int 999), (.str py"Reserved for Private Use")]),
    (.dict [(.str py"data_enc"), (.str py"len_enc"), (.str py"len_type"), (.str py"max_len"), (.str py"desc")] [(.str py"ascii"), (.str py"ascii"), (.int 3), (.int 999), (.str py"Reserved for Private Use")]),
    (.dict [(.str py"data_enc"), (.str py"len_enc"), (.str py"len_type"), (.str py"max_len"), (.str py"desc")] [(.str py"ascii"), (.str py"ascii"), (.int 3), (.int 999), (.str py"Reserved for Private Use")]),
    (.dict [(.str py"data_enc"), (.str py"len_enc"), (.str py"len_type"), (.str py"max_len"), (.str py"desc")] [(.str py"ascii"), (.str py"ascii"), (.int 0), (.int 16), (.str py"MAC")])])

/-- specs.py: the module's statements. -/
def specsModule : List Stmt := [specs1, specs2]

end Iso8583.Src
