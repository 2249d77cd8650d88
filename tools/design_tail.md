## Code that is not modelled

* `src/chain/json/*`, `serial/*`, property tree and JSON conversions: Boost.JSON values.
* `src/config/*` (option parsing, printing, endpoint/authority/url parsing with Boost and regular expressions), `src/wallet/addresses/uri.cpp`,
  `bitcoin_uri.cpp` (Boost.URL), `qr_code.cpp`, `tiff.cpp` (libqrencode).
* `src/unicode/conversion.cpp`, `utf8_everywhere/*` (boost::locale, Win32); `src/unicode/normalization.cpp` except as a parameter.
* SHA-NI/NEON/AVX intrinsics of the hash functions (`algorithm_native.ipp`); the portable and the vector-schedule paths are modelled.
* Error code tables (`src/error/*`): enumerations with messages; the codes appear in the models by name.
* Settings (`src/settings.cpp`) except the constants that properties use.
